import Verif.Model.IssueFinder
import Mathlib.Data.List.Nodup

/-!
# C45: the arguments with which `Datalab.find_issues` runs its checks
-/

namespace Cleanlab.Props

open Cleanlab.Finder

variable {V : Type}

/-- The data arguments each check takes. -/
def takes (task : Task) (check a : String) : Prop :=
  match task with
  | .classification =>
    (a = "pred_probs" ∧ check ∈ ["label", "outlier", "non_iid", "underperforming_group"]) ∨
    (a = "features" ∧ check ∈ ["label", "outlier", "near_duplicate", "non_iid", "underperforming_group", "data_valuation", "null"]) ∨
    (a = "knn_graph" ∧ check ∈ ["outlier", "near_duplicate", "non_iid", "underperforming_group", "data_valuation"]) ∨
    (a = "cluster_ids" ∧ check = "underperforming_group")
  | .regression =>
    (a = "predictions" ∧ check = "label") ∨
    (a = "features" ∧ check ∈ ["label", "outlier", "near_duplicate", "non_iid", "data_valuation", "null"]) ∨
    (a = "knn_graph" ∧ check ∈ ["outlier", "near_duplicate", "non_iid", "data_valuation"])
  | .multilabel =>
    (a = "pred_probs" ∧ check = "label") ∨
    (a = "features" ∧ check ∈ ["outlier", "near_duplicate", "non_iid", "data_valuation", "null"]) ∨
    (a = "knn_graph" ∧ check ∈ ["outlier", "near_duplicate", "non_iid", "data_valuation"])

instance (task : Task) (check a : String) : Decidable (takes task check a) := by
  unfold takes; cases task <;> infer_instance

/-- The value a check should get for argument `a`: what the caller's dictionary says (`None` counts as not given), and
for an absent key the value passed to this call if the check takes this argument; the model outputs are passed as
`predictions` to the regression checks. -/
def expectedArg (task : Task) (c : Call V) (d : Dict V) (check a : String) : Option V :=
  match d.lookup a with
  | some v => v
  | none =>
    if takes task check a then
      if a = "features" then c.features
      else if a = "knn_graph" then c.knnGraph
      else if a = "pred_probs" ∨ a = "predictions" then c.predProbs
      else none
    else none

theorem takes_iff (task : Task) (check a : String) :
    a ∈ ((argTable task).lookup check).getD [] ↔ takes task check a := by
  cases task <;>
  · unfold argTable takes
    simp only [List.lookup_cons, List.lookup_nil]
    by_cases h1 : check = "label"
    · subst h1; simp [or_comm]
    by_cases h2 : check = "outlier"
    · subst h2; simp
    by_cases h3 : check = "near_duplicate"
    · subst h3; simp
    by_cases h4 : check = "non_iid"
    · subst h4; simp
    by_cases h5 : check = "underperforming_group"
    · subst h5; simp
    by_cases h6 : check = "data_valuation"
    · subst h6; simp
    by_cases h7 : check = "class_imbalance"
    · subst h7; simp
    by_cases h8 : check = "null"
    · subst h8; simp
    simp [h1, h2, h3, h4, h5, h6, h7, h8, beq_eq_false_iff_ne.mpr]

theorem taken_value (task : Task) (c : Call V) (check a : String) :
    (if a ∈ ((argTable task).lookup check).getD [] then kwarg task c a else none) =
      if takes task check a then
        if a = "features" then c.features
        else if a = "knn_graph" then c.knnGraph
        else if a = "pred_probs" ∨ a = "predictions" then c.predProbs
        else none
      else none := by
  by_cases ht : takes task check a
  · rw [if_pos ((takes_iff task check a).mpr ht), if_pos ht]
    unfold kwarg
    unfold takes at ht
    cases task <;> dsimp only at ht
    · rcases ht with ⟨rfl, -⟩ | ⟨rfl, -⟩ | ⟨rfl, -⟩ | ⟨rfl, -⟩ <;> simp
    · rcases ht with ⟨rfl, -⟩ | ⟨rfl, -⟩ | ⟨rfl, -⟩ <;> simp
    · rcases ht with ⟨rfl, -⟩ | ⟨rfl, -⟩ | ⟨rfl, -⟩ <;> simp
  · rw [if_neg (fun h => ht ((takes_iff task check a).mp h)), if_neg ht]

theorem lookup_none_of_not_mem {β : Type} (d : List (String × β)) (a : String) (h : a ∉ d.map (·.1)) :
    d.lookup a = none := by
  induction d with
  | nil => rfl
  | cons e t ih =>
    simp only [List.map_cons, List.mem_cons, not_or] at h
    rw [show e = (e.1, e.2) from rfl, List.lookup_cons]
    have hb : (a == e.1) = false := by simpa using h.1
    rw [hb]
    exact ih h.2

theorem mem_of_lookup {β : Type} (d : List (String × β)) (a : String) (v : β) (h : d.lookup a = some v) :
    a ∈ d.map (·.1) := by
  by_contra hc
  rw [lookup_none_of_not_mem d a hc] at h
  simp at h

theorem lookup_append' {β : Type} (d e : List (String × β)) (a : String) :
    (d ++ e).lookup a = (d.lookup a).or (e.lookup a) := by
  induction d with
  | nil => simp
  | cons x t ih =>
    rw [List.cons_append, show x = (x.1, x.2) from rfl, List.lookup_cons, List.lookup_cons, ih]
    cases a == x.1 <;> simp

theorem lookup_dropNone (d : Dict V) (hd : (d.map (·.1)).Nodup) (a : String) :
    (dropNone d).lookup a = (d.lookup a).join := by
  induction d with
  | nil => rfl
  | cons e t ih =>
    obtain ⟨k, v⟩ := e
    simp only [List.map_cons, List.nodup_cons] at hd
    unfold dropNone at ih ⊢
    rw [List.filterMap_cons]
    by_cases hk : a = k
    · subst hk
      cases v with
      | none =>
        simp only [Option.map_none, List.lookup_cons, beq_self_eq_true]
        rw [ih hd.2, lookup_none_of_not_mem t a hd.1]
        rfl
      | some v => simp
    · have hb : (a == k) = false := by simpa using hk
      cases v with
      | none => simp [List.lookup_cons, hb, ih hd.2]
      | some v => simp [List.lookup_cons, hb, ih hd.2]

theorem lookup_passed (task : Task) (c : Call V) (args : List String) (a : String) :
    (passed task c args).lookup a = if a ∈ args then kwarg task c a else none := by
  induction args with
  | nil => rfl
  | cons x t ih =>
    unfold passed at ih ⊢
    rw [List.filterMap_cons]
    by_cases hx : a = x
    · subst hx
      cases hk : kwarg task c a with
      | none => simp [hk, ih]
      | some v => simp
    · have hb : (a == x) = false := by simpa using hx
      cases hk : kwarg task c x with
      | none => simp [ih, hx]
      | some v => simp [List.lookup_cons, hb, ih, hx]

theorem lookup_resolve_aux (task : Task) (c : Call V) (table : List (String × List String))
    (hnd : (table.map (·.1)).Nodup) (t : String) :
    (((table.map (fun e => (e.1, e.2, passed task c e.2))).filterMap
      (fun e => if e.2.2 ≠ [] ∨ e.2.1 = [] then some (e.1, e.2.2) else none)).lookup t) =
      (table.lookup t).bind
        (fun args => if passed task c args ≠ [] ∨ args = [] then some (passed task c args) else none) := by
  induction table with
  | nil => rfl
  | cons e r ih =>
    obtain ⟨k, args⟩ := e
    simp only [List.map_cons, List.nodup_cons] at hnd
    rw [List.map_cons, List.filterMap_cons, List.lookup_cons]
    simp only
    by_cases hk : t = k
    · subst hk
      simp only [beq_self_eq_true, Option.bind_some]
      split_ifs with h
      · simp
      · simp only
        rw [ih hnd.2, lookup_none_of_not_mem r t hnd.1]
        rfl
    · have hb : (t == k) = false := by simpa using hk
      rw [hb]
      simp only
      rw [← ih hnd.2]
      split_ifs with h
      · simp [List.lookup_cons, hb]
      · rfl

theorem argTable_nodup (task : Task) : ((argTable task).map (·.1)).Nodup := by
  cases task <;> decide

theorem lookup_resolve (task : Task) (c : Call V) (t : String) :
    ((resolve task c).lookup t).getD [] = passed task c (((argTable task).lookup t).getD []) := by
  unfold resolve
  rw [lookup_resolve_aux task c _ (argTable_nodup task)]
  cases (argTable task).lookup t with
  | none => rfl
  | some args =>
    simp only [Option.bind_some, Option.getD_some]
    split_ifs with h
    · rfl
    · push Not at h
      rw [h.1]
      rfl

theorem impute_other (req : List (String × List (String × V))) (heap : ℕ → Dict V) (outer : List (String × ℕ)) (r : ℕ)
    (h : r ∉ outer.map (·.2)) : impute req heap outer r = heap r := by
  unfold impute
  induction outer generalizing heap with
  | nil => rfl
  | cons e t ih =>
    simp only [List.map_cons, List.mem_cons, not_or] at h
    rw [List.foldl_cons, ih _ h.2, imputeStep, Function.update_of_ne h.1]

theorem impute_apply (req : List (String × List (String × V))) (heap : ℕ → Dict V) (outer : List (String × ℕ))
    (hnd : (outer.map (·.2)).Nodup) (e : String × ℕ) (he : e ∈ outer) :
    impute req heap outer e.2 = heap e.2 ++ missing ((req.lookup e.1).getD []) (heap e.2) := by
  induction outer generalizing heap with
  | nil => simp at he
  | cons x t ih =>
    simp only [List.map_cons, List.nodup_cons] at hnd
    have hstep : impute req heap (x :: t) = impute req (imputeStep req heap x) t := rfl
    rw [hstep]
    rcases List.mem_cons.mp he with rfl | he'
    · rw [impute_other _ _ _ _ hnd.1, imputeStep, Function.update_self]
    · rw [ih _ hnd.2 he']
      have hne : e.2 ≠ x.2 := by
        intro h
        exact hnd.1 (h ▸ List.mem_map_of_mem he')
      rw [imputeStep, Function.update_of_ne hne]

theorem passed_keys_nodup (task : Task) (c : Call V) (args : List String) (h : args.Nodup) :
    ((passed task c args).map (·.1)).Nodup := by
  unfold passed
  have : (args.filterMap (fun a => (kwarg task c a).map (fun v => (a, v)))).map (·.1) =
      args.filter (fun a => (kwarg task c a).isSome) := by
    induction args with
    | nil => rfl
    | cons x t ih =>
      rw [List.filterMap_cons]
      cases hk : kwarg task c x with
      | none => simp [hk, ih h.of_cons]
      | some v => simp [hk, ih h.of_cons]
  rw [this]
  exact h.filter _

theorem args_nodup (task : Task) (t : String) : (((argTable task).lookup t).getD []).Nodup := by
  cases h : (argTable task).lookup t with
  | none => exact List.nodup_nil
  | some args =>
    have hmem : (t, args) ∈ argTable task := by
      have : ∀ (l : List (String × List String)), l.lookup t = some args → (t, args) ∈ l := by
        intro l
        induction l with
        | nil => intro h; simp at h
        | cons e r ih =>
          intro h
          obtain ⟨k, a⟩ := e
          rw [List.lookup_cons] at h
          by_cases hk : t = k
          · subst hk
            simp only [beq_self_eq_true, Option.some.injEq] at h
            subst h
            simp
          · have hb : (t == k) = false := by simpa using hk
            rw [hb] at h
            exact List.mem_cons_of_mem _ (ih h)
      exact this _ h
    have hall : ∀ e ∈ argTable task, e.2.Nodup := by cases task <;> decide
    exact hall _ hmem

theorem lookup_missing (req : List (String × V)) (d : Dict V) (a : String) (ha : a ∉ d.map (·.1)) :
    (missing req d).lookup a = (req.lookup a).map some := by
  unfold missing
  induction req with
  | nil => rfl
  | cons e t ih =>
    obtain ⟨k, v⟩ := e
    by_cases hk : k ∈ d.map (·.1)
    · rw [List.filter_cons_of_neg (by simpa using hk), ih, List.lookup_cons]
      have hb : (a == k) = false := by
        simp only [beq_eq_false_iff_ne, ne_eq]
        rintro rfl
        exact ha hk
      rw [hb]
    · rw [List.filter_cons_of_pos (by simpa using hk), List.map_cons, List.lookup_cons, List.lookup_cons, ih]
      cases a == k <;> rfl

/-- The arguments of a requested check after the call filled in the missing ones. -/
theorem lookup_imputed (task : Task) (c : Call V) (heap : ℕ → Dict V)
    (outer : List (String × ℕ)) (hrefs : (outer.map (·.2)).Nodup) (hdict : ∀ r, ((heap r).map (·.1)).Nodup)
    (e : String × ℕ) (he : e ∈ outer) (a : String) :
    (dropNone (impute (resolve task c) heap outer e.2)).lookup a = expectedArg task c (heap e.2) e.1 a := by
  rw [impute_apply _ _ _ hrefs e he, lookup_resolve]
  set req := passed task c (((argTable task).lookup e.1).getD []) with hreq
  have hnd : ((heap e.2 ++ missing req (heap e.2)).map (·.1)).Nodup := by
    rw [List.map_append, List.nodup_append]
    refine ⟨hdict e.2, ?_, ?_⟩
    · unfold missing
      rw [List.map_map]
      have : ((·.1) ∘ fun e : String × V => (e.1, some e.2)) = (fun e : String × V => e.1) := rfl
      rw [this]
      exact (passed_keys_nodup task c _ (args_nodup task e.1)).sublist (List.filter_sublist.map _)
    · intro x hx y hy hxy
      subst hxy
      unfold missing at hy
      rw [List.map_map] at hy
      obtain ⟨z, hz, rfl⟩ := List.mem_map.mp hy
      have := (List.mem_filter.mp hz).2
      simp only [decide_eq_true_eq] at this
      exact this hx
  rw [lookup_dropNone _ hnd, lookup_append']
  unfold expectedArg
  cases hl : (heap e.2).lookup a with
  | some v => rfl
  | none =>
    have hnot : a ∉ (heap e.2).map (·.1) := by
      intro hin
      obtain ⟨z, hz, hza⟩ := List.mem_map.mp hin
      have : ∀ (l : Dict V), z ∈ l → l.lookup a ≠ none := by
        intro l
        induction l with
        | nil => intro h; simp at h
        | cons y t ih =>
          intro hy
          obtain ⟨k, v⟩ := y
          rw [List.lookup_cons]
          by_cases hk : a = k
          · simp [hk]
          · have hb : (a == k) = false := by simpa using hk
            rw [hb]
            rcases List.mem_cons.mp hy with rfl | hy'
            · exact absurd hza.symm hk
            · exact ih hy'
      exact this _ hz hl
    rw [lookup_missing _ _ _ hnot, hreq, lookup_passed]
    simp only [Option.none_or]
    rw [← taken_value]
    cases (if a ∈ ((argTable task).lookup e.1).getD [] then kwarg task c a else none) <;> rfl

/-- One call in isolation: if the caller's inner dictionaries are distinct objects, every check that runs gets exactly
the arguments in its dictionary at the start of the call plus the data passed in this call. -/
theorem C45_args_partial (task : Task) (registry : List String) (hasLabels : Bool) (c : Call V) (heap : ℕ → Dict V)
    (outer : List (String × ℕ)) (hrefs : (outer.map (·.2)).Nodup)
    (hdict : ∀ r, ((heap r).map (·.1)).Nodup) (ran : List (String × List (String × V)))
    (h : (findIssues task registry hasLabels c heap (some outer)).2 = .ok ran) :
    ∀ check args, (check, args) ∈ ran → ∃ r, (check, r) ∈ outer ∧
      ∀ a, args.lookup a = expectedArg task c (heap r) check a := by
  intro check args hmem
  unfold findIssues at h
  simp only at h
  split_ifs at h
  rw [← Except.ok.inj h] at hmem
  simp only [getAvailable, setIssueTypes] at hmem
  obtain ⟨hmem, _⟩ := List.mem_filter.mp hmem
  obtain ⟨e, he, heq⟩ := List.mem_map.mp hmem
  obtain ⟨rfl, rfl⟩ := Prod.mk.inj heq
  refine ⟨e.2, he, ?_⟩
  intro a
  exact lookup_imputed task c heap outer hrefs hdict e he a

/-- Exactly the requested checks run, in the order of the dictionary; only the label and class imbalance checks (without
labels) and the underperforming group check (without a usable pair of arguments) may be left out. -/
theorem C45_runs_partial (task : Task) (registry : List String) (hasLabels : Bool) (c : Call V) (heap : ℕ → Dict V)
    (outer : List (String × ℕ)) (ran : List (String × List (String × V)))
    (h : (findIssues task registry hasLabels c heap (some outer)).2 = .ok ran) :
    (ran.map (·.1)).Sublist (outer.map (·.1)) ∧
    ∀ check ∈ outer.map (·.1),
      (hasLabels = true ∨ (check ≠ "label" ∧ check ≠ "class_imbalance")) → check ≠ "underperforming_group" →
      check ∈ ran.map (·.1) := by
  unfold findIssues at h
  simp only at h
  split_ifs at h
  rw [← Except.ok.inj h]
  simp only [getAvailable, setIssueTypes]
  have hfst : (outer.map (fun e => (e.1, dropNone (impute (resolve task c) heap outer e.2)))).map (·.1) =
      outer.map (·.1) := by
    rw [List.map_map]
    rfl
  constructor
  · rw [← hfst]
    exact List.filter_sublist.map _
  · intro check hc hl hu
    rw [← hfst] at hc
    obtain ⟨e, he, rfl⟩ := List.mem_map.mp hc
    refine List.mem_map_of_mem (List.mem_filter.mpr ⟨he, ?_⟩)
    unfold keep
    rcases hl with hl | ⟨h1, h2⟩
    · simp [hl, hu]
    · simp [h1, h2, hu]

/-- Without `issue_types` nothing is remembered: the checks that run are default checks and their arguments are those
passed in this call, whatever happened before; no dictionary of the caller is involved. -/
theorem C45_defaults_partial (task : Task) (registry : List String) (hasLabels : Bool) (c : Call V) (heap : ℕ → Dict V)
    (ran : List (String × List (String × V))) (h : (findIssues task registry hasLabels c heap none).2 = .ok ran) :
    (findIssues task registry hasLabels c heap none).1 = heap ∧
    ∀ check args, (check, args) ∈ ran → check ∈ defaultTypes task ∧
      ∀ a, args.lookup a = expectedArg task c [] check a := by
  refine ⟨rfl, ?_⟩
  intro check args hmem
  unfold findIssues at h
  simp only at h
  split_ifs at h
  rw [← Except.ok.inj h] at hmem
  simp only [getAvailable, setIssueTypes] at hmem
  obtain ⟨hmem, _⟩ := List.mem_filter.mp hmem
  obtain ⟨t, ht, heq⟩ := List.mem_filterMap.mp hmem
  cases hl : (resolve task c).lookup t with
  | none => simp [hl] at heq
  | some x =>
    simp only [hl, Option.map_some, Option.some.injEq, Prod.mk.injEq] at heq
    obtain ⟨rfl, rfl⟩ := heq
    refine ⟨ht, ?_⟩
    intro a
    have := lookup_resolve task c t
    rw [hl, Option.getD_some] at this
    rw [this, lookup_passed]
    exact taken_value task c t a

/-- The caller's dictionaries stay as they are if they already contain every argument that this call would add. -/
theorem C45_unchanged_partial (task : Task) (registry : List String) (hasLabels : Bool) (c : Call V) (heap : ℕ → Dict V)
    (outer : List (String × ℕ))
    (h : ∀ e ∈ outer, ∀ a ∈ ((argTable task).lookup e.1).getD [], (kwarg task c a).isSome →
      a ∈ (heap e.2).map (·.1)) :
    (findIssues task registry hasLabels c heap (some outer)).1 = heap := by
  show impute (resolve task c) heap outer = heap
  unfold impute
  induction outer with
  | nil => rfl
  | cons e t ih =>
    rw [List.foldl_cons]
    have hstep : imputeStep (resolve task c) heap e = heap := by
      unfold imputeStep
      rw [lookup_resolve]
      have hm : missing (passed task c (((argTable task).lookup e.1).getD [])) (heap e.2) = [] := by
        unfold missing
        rw [List.map_eq_nil_iff, List.filter_eq_nil_iff]
        intro x hx
        unfold passed at hx
        obtain ⟨a, ha, hax⟩ := List.mem_filterMap.mp hx
        cases hk : kwarg task c a with
        | none => simp [hk] at hax
        | some v =>
          simp only [hk, Option.map_some, Option.some.injEq] at hax
          subst hax
          have := h e (by simp) a ha (by simp [hk])
          simpa using this
      rw [hm, List.append_nil, Function.update_eq_self]
    rw [hstep]
    exact ih (fun e he => h e (List.mem_cons_of_mem _ he))

/-- The caller's dictionary is changed: after one call with `issue_types = {"label": {}}` and `pred_probs = 1` the inner
dictionary holds `pred_probs`. -/
theorem C45_not_unchanged :
    (findIssues .classification ["label"] true ⟨some 1, none, none⟩ (fun _ => ([] : Dict ℕ)) (some [("label", 0)])).1 0 =
      [("pred_probs", some 1)] := by
  decide

/-- Arguments of an earlier call are remembered: with the same `issue_types` dictionary the second call, made with
`pred_probs = 2`, runs the label check with `pred_probs = 1` from the first call. -/
theorem C45_not_fresh :
    history .classification ["label"] true (fun _ => ([] : Dict ℕ))
      [(⟨some 1, none, none⟩, some [("label", 0)]), (⟨some 2, none, none⟩, some [("label", 0)])] =
    [.ok [("label", [("pred_probs", 1)])], .ok [("label", [("pred_probs", 1)])]] := by
  rfl

/-- In general: an argument added by one call overrides whatever the next call with the same dictionary passes. -/
theorem C45_not_fresh_any (task : Task) (registry : List String) (hasLabels : Bool) (c c' : Call V) (heap : ℕ → Dict V)
    (check a : String) (v : V) (r : ℕ) (ha : a ∈ ((argTable task).lookup check).getD [])
    (hv : kwarg task c a = some v) (hnew : a ∉ (heap r).map (·.1))
    (ran : List (String × List (String × V)))
    (h : (findIssues task registry hasLabels c'
      (findIssues task registry hasLabels c heap (some [(check, r)])).1 (some [(check, r)])).2 = .ok ran) :
    ∀ args, (check, args) ∈ ran → args.lookup a = some v := by
  intro args hargs
  have hheap : (findIssues task registry hasLabels c heap (some [(check, r)])).1 r =
      heap r ++ missing (passed task c (((argTable task).lookup check).getD [])) (heap r) := by
    have := impute_apply (resolve task c) heap [(check, r)] (by simp) (check, r) (by simp)
    rw [lookup_resolve] at this
    exact this
  unfold findIssues at h
  simp only at h
  split_ifs at h
  rw [← Except.ok.inj h] at hargs
  simp only [getAvailable, setIssueTypes] at hargs
  obtain ⟨hmem, _⟩ := List.mem_filter.mp hargs
  obtain ⟨e, he, heq⟩ := List.mem_map.mp hmem
  rw [List.mem_singleton] at he
  subst he
  simp only [Prod.mk.injEq, true_and] at heq
  have himp := impute_apply (resolve task c') (impute (resolve task c) heap [(check, r)]) [(check, r)] (by simp)
    (check, r) (by simp)
  simp only at himp
  rw [himp] at heq
  have hh : impute (resolve task c) heap [(check, r)] r =
      heap r ++ missing (passed task c (((argTable task).lookup check).getD [])) (heap r) := hheap
  rw [hh] at heq
  have hlook : (missing (passed task c (((argTable task).lookup check).getD [])) (heap r)).lookup a = some (some v) := by
    rw [lookup_missing _ _ _ hnew, lookup_passed, if_pos ha, hv]
    rfl
  have hnone : (heap r).lookup a = none := lookup_none_of_not_mem _ _ hnew
  have key : ∀ (d e : Dict V), d.lookup a = some (some v) → (dropNone (d ++ e)).lookup a = some v := by
    intro d e
    induction d with
    | nil => intro h; simp at h
    | cons x t ih =>
      intro h
      obtain ⟨k, w⟩ := x
      rw [List.lookup_cons] at h
      unfold dropNone at ih ⊢
      rw [List.cons_append, List.filterMap_cons]
      by_cases hk : a = k
      · subst hk
        simp only [beq_self_eq_true, Option.some.injEq] at h
        subst h
        simp
      · have hb : (a == k) = false := by simpa using hk
        rw [hb] at h
        cases w with
        | none => simpa using ih h
        | some w => simpa [List.lookup_cons, hb] using ih h
  rw [← heq]
  refine key _ _ ?_
  rw [lookup_append', hnone, hlook]
  rfl

example : (findIssues .classification ["label", "outlier"] true ⟨some 1, some 7, none⟩
    (fun r => if r = 0 then ([("k", some 5)] : Dict ℕ) else [])
    (some [("outlier", 0), ("label", 1)])).2 =
    .ok [("outlier", [("k", 5), ("pred_probs", 1), ("features", 7)]), ("label", [("pred_probs", 1), ("features", 7)])] := by
  rfl

/-- **C45, labels.** Without labels the label check does not run, unless the task is regression, and for classification
neither does the class imbalance check, whether or not they were asked for. -/
theorem C45_needs_labels (task : Task) (registry : List String) (c : Call V) (heap : ℕ → Dict V)
    (issueTypes : Option (List (String × ℕ))) (ran : List (String × List (String × V)))
    (h : (findIssues task registry false c heap issueTypes).2 = .ok ran) :
    (task ≠ .regression → "label" ∉ ran.map (·.1)) ∧ (task = .classification → "class_imbalance" ∉ ran.map (·.1)) := by
  unfold findIssues at h
  simp only at h
  split_ifs at h
  rw [← Except.ok.inj h]
  constructor
  · intro ht hm
    obtain ⟨e, he, hn⟩ := List.mem_map.mp hm
    have := (List.mem_filter.mp he).2
    simp [keep, hn, ht] at this
  · intro ht hm
    obtain ⟨e, he, hn⟩ := List.mem_map.mp hm
    have := (List.mem_filter.mp he).2
    simp [keep, hn, ht] at this

example : (findIssues .classification ["label", "null"] false ⟨some 1, some 2, none⟩ (fun _ => ([] : Dict ℕ))
    (some [("label", 0), ("null", 1)])).2 = .ok [("null", [("features", 2)])] := by
  rfl

/-- The default checks with whether they run, from what was passed. -/
theorem default_names (task : Task) (hasLabels : Bool) (c : Call V) (heap : ℕ → Dict V) :
    (getAvailable task hasLabels c heap none).2.map (·.1) =
      ([("null", c.features.isSome),
        ("label", (hasLabels || task = .regression) && (c.predProbs.isSome || (task ≠ .multilabel && c.features.isSome))),
        ("outlier", (task = .classification && c.predProbs.isSome) || c.features.isSome || c.knnGraph.isSome),
        ("near_duplicate", c.features.isSome || c.knnGraph.isSome),
        ("non_iid", (task = .classification && c.predProbs.isSome) || c.features.isSome || c.knnGraph.isSome),
        ("class_imbalance", task = .classification && hasLabels),
        ("underperforming_group", task = .classification && c.predProbs.isSome && (c.features.isSome || c.knnGraph.isSome))].filter
          (·.2)).map (·.1) := by
  obtain ⟨p, f, g⟩ := c
  cases p <;> cases f <;> cases g <;> cases task <;> cases hasLabels <;> rfl

/-- **C45, default checks.** Which checks run when none is named: those for which the call passed usable data.  The underperforming
group check needs predictions together with features or a graph. -/
theorem C45_default_checks (task : Task) (registry : List String) (hreg : ∀ t ∈ defaultTypes task, t ∈ registry)
    (hasLabels : Bool) (c : Call V) (heap : ℕ → Dict V) :
    ∃ ran, (findIssues task registry hasLabels c heap none).2 = .ok ran ∧
      ∀ check, check ∈ ran.map (·.1) ↔
        (check = "null" ∧ c.features.isSome) ∨
        (check = "label" ∧ (hasLabels ∨ task = .regression) ∧ (c.predProbs.isSome ∨ task ≠ .multilabel ∧ c.features.isSome)) ∨
        (check = "outlier" ∧ (task = .classification ∧ c.predProbs.isSome ∨ c.features.isSome ∨ c.knnGraph.isSome)) ∨
        (check = "near_duplicate" ∧ (c.features.isSome ∨ c.knnGraph.isSome)) ∨
        (check = "non_iid" ∧ (task = .classification ∧ c.predProbs.isSome ∨ c.features.isSome ∨ c.knnGraph.isSome)) ∨
        (check = "class_imbalance" ∧ task = .classification ∧ hasLabels) ∨
        (check = "underperforming_group" ∧ task = .classification ∧ c.predProbs.isSome ∧
          (c.features.isSome ∨ c.knnGraph.isSome)) := by
  have hok : (findIssues task registry hasLabels c heap none).2 = .ok (getAvailable task hasLabels c heap none).2 := by
    unfold findIssues
    dsimp only
    rw [if_pos]
    rw [List.all_eq_true]
    intro e he
    simp only [getAvailable, setIssueTypes] at he
    obtain ⟨t, ht, hte⟩ := List.mem_filterMap.mp (List.mem_filter.mp he).1
    obtain ⟨x, -, rfl⟩ := Option.map_eq_some_iff.mp hte
    exact decide_eq_true (hreg t ht)
  refine ⟨_, hok, fun check => ?_⟩
  rw [default_names]
  simp only [List.mem_map, List.mem_filter, List.mem_cons, List.not_mem_nil, or_false]
  constructor
  · rintro ⟨e, ⟨he, hb⟩, rfl⟩
    rcases he with rfl | rfl | rfl | rfl | rfl | rfl | rfl <;> simp_all [or_assoc]
  · rintro (⟨rfl, h⟩ | ⟨rfl, h⟩ | ⟨rfl, h⟩ | ⟨rfl, h⟩ | ⟨rfl, h⟩ | ⟨rfl, h⟩ | ⟨rfl, h⟩) <;> simp [h, or_assoc]

/-- With features and predictions but without labels five of the seven checks run. -/
example : ((findIssues .classification (defaultTypes .classification) false ⟨some 1, some 2, none⟩ (fun _ => ([] : Dict ℕ)) none).2.map
    (fun r => r.map (·.1))) = .ok ["null", "outlier", "near_duplicate", "non_iid", "underperforming_group"] := by
  rfl

/-- **C45, the group check.** The underperforming group check only runs with predictions
together with features, a graph or cluster ids. -/
theorem C45_group (task : Task) (registry : List String) (hasLabels : Bool) (c : Call V) (heap : ℕ → Dict V)
    (issueTypes : Option (List (String × ℕ))) (ran : List (String × List (String × V)))
    (h : (findIssues task registry hasLabels c heap issueTypes).2 = .ok ran) (args : List (String × V))
    (hm : ("underperforming_group", args) ∈ ran) :
    (args.lookup "pred_probs").isSome ∧ ((args.lookup "features").isSome ∨ (args.lookup "knn_graph").isSome ∨
      (args.lookup "cluster_ids").isSome) := by
  unfold findIssues at h
  simp only at h
  split_ifs at h
  rw [← Except.ok.inj h] at hm
  have := (List.mem_filter.mp hm).2
  simp only [keep, groupArgsOk] at this
  simp only [decide_true, Bool.true_and, Bool.not_not, Bool.and_eq_true, Bool.or_eq_true] at this
  tauto
/-- **C45, the group check.** … and if it is asked for by name and has them, it runs. -/
theorem C45_group_runs (task : Task) (registry : List String) (hasLabels : Bool) (c : Call V) (heap : ℕ → Dict V)
    (outer : List (String × ℕ)) (hrefs : (outer.map (·.2)).Nodup) (hdict : ∀ r, ((heap r).map (·.1)).Nodup)
    (ran : List (String × List (String × V))) (h : (findIssues task registry hasLabels c heap (some outer)).2 = .ok ran)
    (r : ℕ) (hr : ("underperforming_group", r) ∈ outer)
    (hp : (expectedArg task c (heap r) "underperforming_group" "pred_probs").isSome)
    (ho : (expectedArg task c (heap r) "underperforming_group" "features").isSome ∨
      (expectedArg task c (heap r) "underperforming_group" "knn_graph").isSome ∨
      (expectedArg task c (heap r) "underperforming_group" "cluster_ids").isSome) :
    "underperforming_group" ∈ ran.map (·.1) := by
  unfold findIssues at h
  simp only at h
  split_ifs at h
  rw [← Except.ok.inj h]
  refine List.mem_map.mpr ⟨("underperforming_group", dropNone (impute (resolve task c) heap outer r)),
    List.mem_filter.mpr ⟨List.mem_map.mpr ⟨_, hr, rfl⟩, ?_⟩, rfl⟩
  have hl := fun a => lookup_imputed task c heap outer hrefs hdict _ hr a
  dsimp only at hl
  simp only [keep, groupArgsOk, hl, hp]
  rcases ho with ho | ho | ho <;> simp [ho]

/-- The cluster ids given in the caller's dictionary suffice. -/
example : ((findIssues .classification (defaultTypes .classification) true ⟨some 1, none, none⟩
    (fun _ => ([("cluster_ids", some 5)] : Dict ℕ)) (some [("underperforming_group", 0)])).2.map (fun r => r.map (·.1))) =
    .ok ["underperforming_group"] := by
  rfl

end Cleanlab.Props
