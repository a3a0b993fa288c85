import Verif.Model.OutlierManager
import Verif.Props.IssueFinder

/-!
# C126: the parameters given for the outlier check

Documented (`docs/source/cleanlab/datalab/guide/issue_type_description.rst`, "Outlier Issue Parameters"): `threshold`,
`k`, `t`, `scaling_factor`, `metric`, and for predicted probabilities `adjust_pred_probs`, `method` and
`confident_thresholds`, inside `ood_kwargs` or outside.
-/

namespace Cleanlab.Props

open Cleanlab.OutlierManager

variable {V : Type}

theorem lookup_rest (named : List String) (args : List (String × V)) (a : String) :
    (rest named args).lookup a = if a ∈ named then none else args.lookup a := by
  unfold rest
  induction args with
  | nil => simp
  | cons e t ih =>
    obtain ⟨k, v⟩ := e
    by_cases hk : k ∈ named
    · rw [List.filter_cons_of_neg (by simpa using hk), ih]
      by_cases ha : a ∈ named
      · rw [if_pos ha, if_pos ha]
      · rw [if_neg ha, if_neg ha, List.lookup_cons]
        have hb : (a == k) = false := by
          simp only [beq_eq_false_iff_ne, ne_eq]
          rintro rfl
          exact ha hk
        rw [hb]
    · rw [List.filter_cons_of_pos (by simpa using hk), List.lookup_cons, ih, List.lookup_cons]
      cases hb : a == k with
      | false => rfl
      | true =>
        have : a = k := by simpa using hb
        subst this
        simp [hk]

theorem lookup_filterMap_names (names : List String) (f : String → Option V) (a : String) :
    (names.filterMap (fun n => (f n).map (fun v => (n, v)))).lookup a = if a ∈ names then f a else none := by
  induction names with
  | nil => simp
  | cons n t ih =>
    rw [List.filterMap_cons]
    by_cases ha : a = n
    · subst ha
      cases hf : f a with
      | none =>
        simp only [Option.map_none, List.mem_cons, true_or, if_true]
        rw [ih, hf]
        split_ifs <;> rfl
      | some v => simp
    · have hb : (a == n) = false := by simpa using ha
      cases hf : f n with
      | none =>
        simp only [Option.map_none, List.mem_cons, ha, false_or]
        exact ih
      | some v =>
        simp only [Option.map_some, List.lookup_cons, hb, List.mem_cons, ha, false_or]
        exact ih

theorem params_ok (kten : V) (args : List (String × V)) : (params kten args).all (fun e => e.1 ∈ oodNames) = true := by
  rw [List.all_eq_true]
  intro e he
  obtain ⟨n, hn, hv⟩ := List.mem_filterMap.mp he
  obtain ⟨v, -, rfl⟩ := Option.map_eq_some_iff.mp hv
  simpa using hn

/-- The caller's `ood_kwargs` is something the constructor accepts: absent, or a dictionary with no key but `params`. -/
def OodKwargsOk (vals : Values V) (args : List (String × V)) : Prop :=
  ∀ v, args.lookup "ood_kwargs" = some v → ∃ d, vals.asDict v = some d ∧ ∀ e ∈ d, e.1 = "params"

/-- The parameters of the estimator for predicted probabilities: those given outside `ood_kwargs`, or the defaults. -/
theorem construct_ok (vals : Values V) (kten : V) (args : List (String × V)) (h : OodKwargsOk vals args) :
    ∃ m, construct vals kten args = .ok m ∧ m.k = args.lookup "k" ∧ m.t = args.lookup "t" ∧
      m.metric = args.lookup "metric" ∧ m.scalingFactor = args.lookup "scaling_factor" ∧
      m.threshold = args.lookup "threshold" ∧
      ∀ name ∈ oodNames, name ≠ "k" → name ≠ "t" → m.ood name = (args.lookup name).or (vals.dflt name) := by
  refine ⟨⟨args.lookup "k", args.lookup "t", args.lookup "metric", args.lookup "scaling_factor",
    args.lookup "threshold", oodParams vals (params kten args)⟩, ?_, rfl, rfl, rfl, rfl, rfl, ?_⟩
  · unfold construct oodInit
    rw [params_ok, if_pos rfl]
    have hl : (rest namedParams args).lookup "ood_kwargs" = args.lookup "ood_kwargs" := by
      rw [lookup_rest, if_neg (by decide)]
    rw [hl]
    cases hv : args.lookup "ood_kwargs" with
    | none => rfl
    | some v =>
      obtain ⟨d, hd, hk⟩ := h v hv
      have hall : d.all (fun e => e.1 = "params") = true := by
        rw [List.all_eq_true]
        intro e he
        simpa using hk e he
      dsimp only
      rw [hd]
      dsimp only
      rw [hall]
      rfl
  · intro name hn hk ht
    dsimp only
    have hs : name ≠ "scaling_factor" := by
      rintro rfl
      revert hn
      decide
    unfold oodParams
    rw [if_neg hs]
    unfold params
    rw [lookup_filterMap_names, if_pos hn]
    unfold param
    rw [if_neg hk, lookup_rest]
    have hnn : name ∉ namedParams := by
      simp only [oodNames, List.mem_cons, List.not_mem_nil, or_false] at hn
      rcases hn with rfl | rfl | rfl | rfl | rfl | rfl | rfl | rfl <;> first | exact absurd rfl hk | exact absurd rfl ht | decide
    rw [if_neg hnn, if_pos hn]
    cases args.lookup name <;> rfl

/-- With features or a kNN graph every documented parameter is used as given. -/
theorem C126_graph_partial (vals : Values V) (kten : V) (labelsAreArray stored : Bool) (args : List (String × V))
    (h : OodKwargsOk vals args)
    (hg : (args.lookup "features").isSome ∨ (args.lookup "knn_graph").isSome ∨ stored = true) :
    check vals kten labelsAreArray stored args = .ok (.graph (args.lookup "features") (args.lookup "knn_graph")
      (args.lookup "k") (args.lookup "t") (args.lookup "metric") (args.lookup "scaling_factor")
      (args.lookup "threshold")) := by
  obtain ⟨m, hm, h1, h2, h3, h4, h5, -⟩ := construct_ok vals kten args h
  unfold check direct
  rw [hm]
  show findIssues labelsAreArray stored m args = _
  unfold findIssues
  have hl : (rest ["features", "pred_probs"] args).lookup "knn_graph" = args.lookup "knn_graph" := by
    rw [lookup_rest, if_neg (by decide)]
  simp only [hl, h1, h2, h3, h4, h5]
  rw [if_pos]
  rcases hg with hg | hg | hg <;> simp [hg]

/-- The names with which the check can succeed on predicted probabilities. -/
def harmless : List String := ["features", "pred_probs", "threshold", "verbose"]

theorem score_iff (labelsAreArray : Bool) (args : List (String × V)) :
    scoreWithPredProbs labelsAreArray (rest ["features", "pred_probs"] args) = .ok () ↔
      labelsAreArray = true ∧ ∀ e ∈ args, e.1 ∈ harmless := by
  unfold scoreWithPredProbs
  cases labelsAreArray with
  | false => simp
  | true =>
    simp only [Bool.not_true, Bool.false_eq_true, if_false, true_and]
    have hall : (((rest ["features", "pred_probs"] args).filter (fun e => e.1 ≠ "threshold")).all
        (fun e => e.1 = "verbose") = true) ↔ ∀ e ∈ args, e.1 ∈ harmless := by
      simp only [rest, List.all_eq_true, List.mem_filter, harmless, decide_eq_true_eq, List.mem_cons,
        List.not_mem_nil, or_false, not_or, and_imp, ne_eq, decide_not, Bool.not_eq_true', decide_eq_false_iff_not]
      constructor
      · intro h e he
        by_contra hc
        push Not at hc
        exact hc.2.2.2 (h e he hc.1 hc.2.1 hc.2.2.1)
      · intro h e he h1 h2 h3
        rcases h e he with h' | h' | h' | h'
        · exact absurd h' h1
        · exact absurd h' h2
        · exact absurd h' h3
        · exact h'
    by_cases hc : ∀ e ∈ args, e.1 ∈ harmless
    · rw [if_pos (hall.mpr hc)]
      simpa using hc
    · rw [if_neg (fun h => hc (hall.mp h))]
      simp only [reduceCtorEq, false_iff]
      exact hc

/-- On predicted probabilities the check uses the threshold as given, and the defaults for everything else. -/
theorem C126_threshold_partial (vals : Values V) (kten : V) (p : V) (args : List (String × V))
    (hk : ∀ e ∈ args, e.1 = "pred_probs" ∨ e.1 = "threshold" ∨ e.1 = "verbose")
    (hp : args.lookup "pred_probs" = some p) :
    ∃ ood, check vals kten true false args = .ok (.predProbs p ood (args.lookup "threshold")) ∧
      ∀ name ∈ ["knn", "method", "adjust_pred_probs", "confident_thresholds", "M", "gamma"], ood name = vals.dflt name := by
  have hnone : ∀ a, a ≠ "pred_probs" → a ≠ "threshold" → a ≠ "verbose" → args.lookup a = none := by
    intro a h1 h2 h3
    apply lookup_none_of_not_mem
    intro hc
    obtain ⟨e, he, rfl⟩ := List.mem_map.mp hc
    rcases hk e he with h' | h' | h'
    · exact h1 h'
    · exact h2 h'
    · exact h3 h'
  obtain ⟨m, hm, -, -, -, -, h5, h6⟩ := construct_ok vals kten args (by
    intro v hv
    rw [hnone _ (by decide) (by decide) (by decide)] at hv
    simp at hv)
  refine ⟨m.ood, ?_, ?_⟩
  · unfold check direct
    rw [hm]
    show findIssues true false m args = _
    unfold findIssues
    have hs := (score_iff true args).mpr ⟨rfl, fun e he => by
      rcases hk e he with h' | h' | h' <;> rw [h'] <;> decide⟩
    simp only [lookup_rest, hnone "features" (by decide) (by decide) (by decide),
      hnone "knn_graph" (by decide) (by decide) (by decide), hp, hs, h5]
    simp
  · intro name hn
    simp only [List.mem_cons, List.not_mem_nil, or_false] at hn
    rcases hn with rfl | rfl | rfl | rfl | rfl | rfl <;>
      rw [h6 _ (by decide) (by decide) (by decide), hnone _ (by decide) (by decide) (by decide), Option.none_or]

/-- On predicted probabilities `Datalab`'s check fails for every parameter other than `threshold` and `verbose`:
whatever its name and its value, and so for every parameter that is documented for this case. -/
theorem C126_not_parameters (vals : Values V) (kten : V) (labelsAreArray : Bool) (args : List (String × V))
    (hf : args.lookup "features" = none) (hg : args.lookup "knn_graph" = none)
    (a : String) (v : V) (ha : args.lookup a = some v) (hn : a ≠ "pred_probs" ∧ a ≠ "threshold" ∧ a ≠ "verbose") :
    ∃ e, check vals kten labelsAreArray false args = .error e := by
  unfold check direct
  cases hc : construct vals kten args with
  | error e => exact ⟨e, rfl⟩
  | ok m =>
    show ∃ e, findIssues labelsAreArray false m args = .error e
    unfold findIssues
    have hl : (rest ["features", "pred_probs"] args).lookup "knn_graph" = none := by
      rw [lookup_rest, if_neg (by decide), hg]
    simp only [hl, hf]
    cases args.lookup "pred_probs" with
    | none => exact ⟨_, rfl⟩
    | some p =>
      cases hs : scoreWithPredProbs labelsAreArray (rest ["features", "pred_probs"] args) with
      | error e => exact ⟨e, by simp⟩
      | ok u =>
        exfalso
        have hu := ((score_iff labelsAreArray args).mp hs).2
        obtain ⟨e, he, rfl⟩ := List.mem_map.mp (mem_of_lookup args a v ha)
        have := hu e he
        simp only [harmless, List.mem_cons, List.not_mem_nil, or_false] at this
        rcases this with h | h | h | h
        · rw [h, hf] at ha
          simp at ha
        · exact hn.1 h
        · exact hn.2.1 h
        · exact hn.2.2 h

/-- The same for a call of `Datalab.find_issues` with predicted probabilities only: the dictionary `issue_types` asks
for the outlier check with some parameter `a`, and the check fails. -/
theorem C126_not_datalab (vals : Values V) (kten : V) (registry : List String) (hasLabels labelsAreArray : Bool) (p : V)
    (heap : ℕ → Finder.Dict V) (r : ℕ) (hdict : ∀ r, ((heap r).map (·.1)).Nodup)
    (hf : (heap r).lookup "features" = none) (hg : (heap r).lookup "knn_graph" = none)
    (a : String) (v : V) (ha : (heap r).lookup a = some (some v))
    (hn : a ≠ "pred_probs" ∧ a ≠ "threshold" ∧ a ≠ "verbose") (ran : List (String × List (String × V)))
    (h : (Finder.findIssues .classification registry hasLabels ⟨some p, none, none⟩ heap (some [("outlier", r)])).2 =
      .ok ran) :
    ∃ args, ran = [("outlier", args)] ∧ args.lookup a = some v ∧
      ∃ e, check vals kten labelsAreArray false args = .error e := by
  obtain ⟨hsub, hin⟩ := C45_runs_partial _ _ _ _ _ _ _ h
  have hmem : "outlier" ∈ ran.map (·.1) := hin "outlier" (by simp) (Or.inr (by decide)) (by decide)
  have hlen : ran.length ≤ 1 := by simpa using hsub.length_le
  obtain ⟨e, rfl⟩ : ∃ e, ran = [e] := by
    cases ran with
    | nil => simp at hmem
    | cons e t =>
      cases t with
      | nil => exact ⟨e, rfl⟩
      | cons _ _ => simp at hlen
  obtain ⟨name, args⟩ := e
  have hname : "outlier" = name := by simpa using hmem
  subst hname
  obtain ⟨r', hr', hargs⟩ := C45_args_partial _ _ _ _ _ _ (by simp) hdict _ h "outlier" args (by simp)
  have hrr : r' = r := by simpa using hr'
  subst hrr
  have hA : args.lookup a = some v := by
    rw [hargs]
    unfold expectedArg
    rw [ha]
  refine ⟨args, rfl, hA, C126_not_parameters vals kten labelsAreArray args ?_ ?_ a v hA hn⟩
  · rw [hargs]
    unfold expectedArg
    rw [hf]
    simp
  · rw [hargs]
    unfold expectedArg
    rw [hg]
    simp

/-- The issue manager used directly, with the parameters given to its constructor only: those outside `ood_kwargs` are
used for predicted probabilities. -/
theorem C126_direct_partial (vals : Values V) (kten : V) (init : List (String × V)) (p : V)
    (h : OodKwargsOk vals init) :
    ∃ ood, direct vals kten true false init [("pred_probs", p)] = .ok (.predProbs p ood (init.lookup "threshold")) ∧
      ∀ name ∈ ["method", "adjust_pred_probs", "confident_thresholds", "M", "gamma"],
        ood name = (init.lookup name).or (vals.dflt name) := by
  obtain ⟨m, hm, -, -, -, -, h5, h6⟩ := construct_ok vals kten init h
  refine ⟨m.ood, ?_, ?_⟩
  · unfold direct
    rw [hm]
    show findIssues true false m [("pred_probs", p)] = _
    rw [← h5]
    rfl
  · intro name hn
    apply h6 name
    · simp only [List.mem_cons, List.not_mem_nil, or_false] at hn
      rcases hn with rfl | rfl | rfl | rfl | rfl <;> decide
    · rintro rfl; revert hn; decide
    · rintro rfl; revert hn; decide

/-- What the caller writes into `ood_kwargs["params"]` is never used: the constructor behaves as if `ood_kwargs` were
absent. -/
theorem C126_not_ood_kwargs (vals : Values V) (kten : V) (init : List (String × V)) (v : V) (d : List (String × V))
    (hd : vals.asDict v = some d) (hk : ∀ e ∈ d, e.1 = "params") (hno : "ood_kwargs" ∉ init.map (·.1)) :
    construct vals kten (("ood_kwargs", v) :: init) = construct vals kten init := by
  have hother : ∀ a, a ≠ "ood_kwargs" → (("ood_kwargs", v) :: init).lookup a = init.lookup a := by
    intro a ha
    rw [List.lookup_cons]
    have hb : (a == "ood_kwargs") = false := by simpa using ha
    rw [hb]
  have hparams : params kten (("ood_kwargs", v) :: init) = params kten init := by
    unfold params
    apply List.filterMap_congr
    intro name hn
    congr 1
    unfold param
    rw [hother "k" (by decide), lookup_rest, lookup_rest, hother name]
    rintro rfl
    revert hn
    decide
  have hall : d.all (fun e => e.1 = "params") = true := by
    rw [List.all_eq_true]
    intro e he
    simpa using hk e he
  unfold construct
  rw [lookup_rest, lookup_rest, if_neg (by decide), if_neg (by decide), lookup_none_of_not_mem init _ hno, hparams,
    hother _ (by decide), hother _ (by decide), hother _ (by decide), hother _ (by decide), hother _ (by decide)]
  simp only [List.lookup_cons, beq_self_eq_true, hd, hall, if_true]

/-- And the caller's dictionary is changed: its `params` are gone. -/
theorem C126_not_unchanged (kten : V) (toDict : List (String × V) → V) (args d : List (String × V)) :
    (mutated kten toDict args d).lookup "params" = some (toDict (params kten args)) := by
  unfold mutated
  rw [lookup_append', lookup_none_of_not_mem]
  · simp
  · intro hc
    obtain ⟨e, he, h⟩ := List.mem_map.mp hc
    have := (List.mem_filter.mp he).2
    simp [h] at this

/-- Values for the examples: numbers and dictionaries of numbers. -/
inductive Val where
  | num (n : ℕ)
  | str (s : String)
  | dict (d : List (String × ℕ))

def valValues : Values Val where
  asDict
    | .dict d => some (d.map (fun e => (e.1, Val.num e.2)))
    | _ => none
  dflt
    | "method" => some (.str "entropy")
    | "adjust_pred_probs" => some (.num 1)
    | "t" => some (.num 1)
    | _ => none

example : ∃ e, check valValues (.num 10) true false [("method", .str "gen"), ("pred_probs", .num 0)] = .error e :=
  C126_not_parameters _ _ _ _ rfl rfl "method" (.str "gen") rfl (by decide)

example : ∃ e, check valValues (.num 10) true false [("k", .num 5), ("pred_probs", .num 0)] = .error e :=
  C126_not_parameters _ _ _ _ rfl rfl "k" (.num 5) rfl (by decide)

example : check valValues (.num 10) true false [("k", .num 5), ("threshold", .num 1), ("features", .num 7)] =
    .ok (.graph (some (.num 7)) none (some (.num 5)) none none none (some (.num 1))) :=
  C126_graph_partial _ _ _ _ _ (by intro v hv; simp [List.lookup] at hv) (Or.inl rfl)

example : ∃ ood, check valValues (.num 10) true false [("threshold", .num 1), ("pred_probs", .num 0)] =
    .ok (.predProbs (.num 0) ood (some (.num 1))) ∧ ood "method" = some (.str "entropy") := by
  obtain ⟨ood, h, hd⟩ := C126_threshold_partial valValues (.num 10) (.num 0)
    [("threshold", .num 1), ("pred_probs", .num 0)] (by simp) rfl
  exact ⟨ood, h, hd "method" (by decide)⟩

example : ∃ ood, direct valValues (.num 10) true false [("method", .str "gen")] [("pred_probs", .num 0)] =
    .ok (.predProbs (.num 0) ood none) ∧ ood "method" = some (.str "gen") := by
  obtain ⟨ood, h, hd⟩ := C126_direct_partial valValues (.num 10) [("method", .str "gen")] (.num 0)
    (by intro v hv; simp [List.lookup] at hv)
  exact ⟨ood, h, hd "method" (by simp)⟩

end Cleanlab.Props
