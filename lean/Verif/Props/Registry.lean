import Verif.Model.Registry
import Mathlib.Tactic.SplitIfs

/-!
# C106: registering checks
-/

namespace Cleanlab.Props

open Cleanlab.Finder Cleanlab.Registry

theorem lookup_assign (d : List (String × Cls)) (k c : String) (v : Cls) :
    (assign d k v).lookup c = if c = k then some v else d.lookup c := by
  unfold assign
  split_ifs with hk hc hc
  · subst hc
    induction d with
    | nil => simp at hk
    | cons e d ih =>
      rw [List.map_cons]
      by_cases he : e.1 = c
      · simp [he, List.lookup]
      · have hk' : c ∈ d.map (·.1) := by
          rcases List.mem_cons.mp hk with h | h
          · exact absurd h.symm he
          · exact h
        have : (c == e.1) = false := by simpa using fun h => he h.symm
        rw [if_neg he, List.lookup_cons, this]
        exact ih hk'
  · clear hk
    induction d with
    | nil => rfl
    | cons e d ih =>
      rw [List.map_cons, List.lookup_cons, List.lookup_cons, ih]
      by_cases he : e.1 = k
      · have h1 : (c == k) = false := by simpa using hc
        have h2 : (c == e.1) = false := by rw [he]; exact h1
        simp [he, h1]
      · simp [he]
  · subst hc
    have : d.lookup c = none := by
      rw [List.lookup_eq_none_iff]
      intro e he
      simp only [ne_eq, bne_iff_ne]
      rintro rfl
      exact hk (List.mem_map_of_mem he)
    simp [List.lookup_append, this]
  · have h1 : (c == k) = false := by simpa using hc
    simp [List.lookup_append, List.lookup_cons, h1]

/-- **C106, possible types.** The listed types are exactly those for which a check can be constructed. -/
theorem C106_possible (reg : Reg) (task : Task) (name : String) :
    name ∈ listPossible reg task ↔ ∃ cls, fromStr reg name task = .ok cls := by
  unfold listPossible fromStr
  cases h : (reg task).lookup name with
  | none =>
    rw [List.lookup_eq_none_iff] at h
    simp only [reduceCtorEq, exists_false, iff_false]
    intro hm
    obtain ⟨e, he, rfl⟩ := List.mem_map.mp hm
    simpa using h e he
  | some cls =>
    simp only [Except.ok.injEq, exists_eq', iff_true]
    obtain ⟨l1, l2, heq, _⟩ := List.lookup_eq_some_iff.mp h
    rw [heq]
    simp

/-- The string of a task, `task.py:28-33`. -/
def taskValue : Task → String
  | .classification => "classification"
  | .regression => "regression"
  | .multilabel => "multilabel"

theorem taskFromStr_iff (s : String) (t : Task) : taskFromStr s = .ok t ↔ s = taskValue t := by
  unfold taskFromStr
  constructor
  · intro h
    split_ifs at h with h1 h2 h3 <;> (rw [← Except.ok.inj h]; assumption)
  · rintro rfl
    cases t <;> decide

/-- **C106, registering.** Registering a subclass of `IssueManager` for a valid task returns the class itself, the class
is then constructed for its name in this task, and every other name and every other task is as before. -/
theorem C106_register (reg : Reg) (cls : Cls) (hcls : cls.isManager = true) (t : Task) :
    ∃ reg', register reg cls (taskValue t) = .ok (reg', cls) ∧
      fromStr reg' cls.issueName t = .ok cls ∧
      ∀ name task, (name, task) ≠ (cls.issueName, t) → fromStr reg' name task = fromStr reg name task := by
  refine ⟨Function.update reg t (assign (reg t) cls.issueName cls), ?_, ?_, ?_⟩
  · unfold register
    rw [if_neg (by simp [hcls]), (taskFromStr_iff _ t).mpr rfl]
  · simp [fromStr, lookup_assign]
  · intro name task hne
    unfold fromStr
    by_cases ht : task = t
    · subst ht
      have : name ≠ cls.issueName := fun h => hne (by rw [h])
      simp [lookup_assign, this]
    · rw [Function.update_of_ne ht]

/-- **C106, refusing.** `register` raises for exactly the other arguments. -/
theorem C106_refuses (reg : Reg) (cls : Cls) (s : String) :
    (∃ e, register reg cls s = .error e) ↔ cls.isManager = false ∨ ∀ t, s ≠ taskValue t := by
  unfold register
  split_ifs with h
  · simp [h]
  · rw [or_iff_right h]
    cases ht : taskFromStr s with
    | error e =>
      simp only [Except.error.injEq, exists_eq', true_iff]
      intro t hs
      rw [(taskFromStr_iff s t).mpr hs] at ht
      exact absurd ht (by simp)
    | ok t =>
      simp only [reduceCtorEq, exists_false, false_iff]
      intro hall
      exact hall t ((taskFromStr_iff s t).mp ht)

/-- The registrations of a program that count for a name and a task. -/
def registrations (name : String) (task : Task) (calls : List (Cls × String)) : List Cls :=
  (calls.filter (fun c => c.1.isManager && c.1.issueName == name && c.2 == taskValue task)).map (·.1)

/-- **C106, history.** After any sequence of calls a name stands for the class last registered for it in this task, and
for what it stood for at the start if there is none. -/
theorem C106_history (reg : Reg) (calls : List (Cls × String)) (name : String) (task : Task) :
    fromStr (registerAll reg calls) name task =
      match (registrations name task calls).getLast? with
      | some cls => .ok cls
      | none => fromStr reg name task := by
  induction calls generalizing reg with
  | nil => rfl
  | cons c calls ih =>
    obtain ⟨cls, s⟩ := c
    unfold registerAll
    have hcons : registrations name task ((cls, s) :: calls) =
        (if cls.isManager = true ∧ cls.issueName = name ∧ s = taskValue task then [cls] else []) ++
          registrations name task calls := by
      unfold registrations
      rw [List.filter_cons]
      by_cases h : cls.isManager = true ∧ cls.issueName = name ∧ s = taskValue task
      · rw [if_pos h, if_pos (by simp [h.1, h.2.1, h.2.2])]
        rfl
      · rw [if_neg h, if_neg (by
          simp only [Bool.and_eq_true, beq_iff_eq, and_assoc]
          exact h)]
        rfl
    cases hr : register reg cls s with
    | error e =>
      have := (C106_refuses reg cls s).mp ⟨e, hr⟩
      rw [hcons, if_neg (by
        rintro ⟨h1, _, h3⟩
        rcases this with h | h
        · simp [h] at h1
        · exact h task h3), List.nil_append]
      exact ih reg
    | ok r =>
      have hnot : ¬ (cls.isManager = false ∨ ∀ t, s ≠ taskValue t) := by
        intro h
        obtain ⟨e, he⟩ := (C106_refuses reg cls s).mpr h
        rw [hr] at he
        exact absurd he (by simp)
      push Not at hnot
      obtain ⟨hm, t, rfl⟩ := hnot
      have hm : cls.isManager = true := by simpa using hm
      obtain ⟨reg', h1, h2, h3⟩ := C106_register reg cls hm t
      rw [hr] at h1
      rw [Except.ok.inj h1]
      refine (ih reg').trans ?_
      rw [hcons]
      cases hl : (registrations name task calls).getLast? with
      | some x =>
        rw [List.getLast?_append, hl]
        rfl
      | none =>
        have hnil := List.getLast?_eq_none_iff.mp hl
        rw [hnil, List.append_nil]
        by_cases hc : (name, task) = (cls.issueName, t)
        · obtain ⟨rfl, rfl⟩ := Prod.mk.inj hc
          rw [if_pos ⟨hm, rfl, rfl⟩]
          exact h2
        · rw [if_neg (by
            rintro ⟨_, h5, h6⟩
            refine hc ?_
            rw [h5, (by cases t <;> cases task <;> simp_all [taskValue] : t = task)])]
          exact h3 name task hc

/-- A custom check for the examples. -/
def myCheck : Cls := ⟨"MyIssueManager", "my_issue", true⟩

example : (fromStr (registerAll builtin [(myCheck, "regression"), (myCheck, "clustering"),
      (⟨"Other", "label", true⟩, "classification")]) "my_issue" .regression).toOption = some myCheck ∧
    (fromStr (registerAll builtin [(myCheck, "regression")]) "my_issue" .classification).toOption = none := by
  decide +kernel

/-- **C106, requests.** Once a check with a new name is registered, asking for it alone runs it alone, with exactly the
arguments of the request that are not `None`, whatever data is passed besides, and changes no dictionary. -/
theorem C106_requested {V : Type} (reg : Reg) (calls : List (Cls × String)) (name : String) (task : Task)
    (hreg : registrations name task calls ≠ []) (hnew : name ∉ (argTable task).map (·.1))
    (hgroup : name ≠ "underperforming_group") (himb : name ≠ "class_imbalance") (hasLabels : Bool) (c : Call V)
    (heap : ℕ → Dict V) (r : ℕ) :
    findIssues task (listPossible (registerAll reg calls) task) hasLabels c heap (some [(name, r)]) =
      (heap, .ok [(name, dropNone (heap r))]) := by
  have hlabel : name ≠ "label" := by
    rintro rfl
    exact hnew (by cases task <;> decide)
  have hposs : name ∈ listPossible (registerAll reg calls) task := by
    rw [C106_possible, C106_history]
    cases h : (registrations name task calls).getLast? with
    | none => exact absurd (List.getLast?_eq_none_iff.mp h) hreg
    | some x => exact ⟨x, rfl⟩
  have hres : (resolve task c).lookup name = none := by
    rw [List.lookup_eq_none_iff]
    intro e he
    unfold resolve at he
    obtain ⟨x, hx, hxe⟩ := List.mem_filterMap.mp he
    obtain ⟨y, hy, rfl⟩ := List.mem_map.mp hx
    split_ifs at hxe
    rw [← Option.some.inj hxe]
    simp only [ne_eq, bne_iff_ne]
    rintro rfl
    exact hnew (List.mem_map_of_mem hy)
  have himp : impute (resolve task c) heap [(name, r)] = heap := by
    simp [impute, imputeStep, hres, missing]
  have hkeep : ∀ args : List (String × V), keep task hasLabels (name, args) = true := by
    intro args
    simp [keep, hlabel, hgroup, himb]
  unfold findIssues getAvailable setIssueTypes
  simp [himp, hkeep, hposs]

example : (findIssues .regression (listPossible (registerAll builtin [(myCheck, "regression")]) .regression) true
    ⟨some 1, some 2, none⟩ (fun _ => [("threshold", some 5), ("metric", none)]) (some [("my_issue", 0)])).2 =
    .ok [("my_issue", [("threshold", 5)])] := by
  rw [C106_requested builtin _ "my_issue" .regression (by decide) (by decide) (by decide) (by decide)]
  rfl

/-- **C106, defaults.** Whatever was registered, a call without `issue_types` never raises because of an unknown check, and
runs only checks of the default list. -/
theorem C106_defaults {V : Type} (calls : List (Cls × String)) (task : Task) (hasLabels : Bool) (c : Call V)
    (heap : ℕ → Dict V) :
    ∃ ran, (findIssues task (listPossible (registerAll builtin calls) task) hasLabels c heap none).2 = .ok ran ∧
      ∀ e ∈ ran, e.1 ∈ defaultTypes task := by
  have hsub : ∀ e ∈ (getAvailable task hasLabels c heap none).2, e.1 ∈ defaultTypes task := by
    intro e he
    simp only [getAvailable, setIssueTypes] at he
    obtain ⟨he, _⟩ := List.mem_filter.mp he
    obtain ⟨t, ht, heq⟩ := List.mem_filterMap.mp he
    cases hl : (resolve task c).lookup t with
    | none => simp [hl] at heq
    | some x =>
      simp only [hl, Option.map_some, Option.some.injEq] at heq
      rw [← heq]
      exact ht
  refine ⟨(getAvailable task hasLabels c heap none).2, ?_, hsub⟩
  unfold findIssues
  dsimp only
  rw [if_pos]
  rw [List.all_eq_true]
  intro e he
  have h1 := hsub e he
  rw [decide_eq_true_eq, C106_possible, C106_history]
  split
  · exact ⟨_, rfl⟩
  · rw [← C106_possible]
    revert h1
    generalize e.1 = s
    cases task <;>
      (simp only [defaultTypes, listPossible, builtin, entry, List.map_cons, List.map_nil, List.mem_cons,
        List.not_mem_nil, or_false]; tauto)

/-- The documented check `identifier_column` cannot be run: it is registered for no task, so that asking for it as the
documentation says raises. -/
theorem C106_not_identifier_column (task : Task) (hasLabels : Bool) (c : Call ℕ) (heap : ℕ → Dict ℕ) :
    "identifier_column" ∉ listPossible builtin task ∧
    (findIssues task (listPossible builtin task) hasLabels c heap (some [("identifier_column", 0)])).2 =
      .error "Invalid issue type" := by
  have h : "identifier_column" ∉ listPossible builtin task := by cases task <;> decide
  refine ⟨h, ?_⟩
  simp [findIssues, getAvailable, setIssueTypes, keep, h]

/-- The types that the documentation of `REGISTRY` lists for a task, `issue_manager_factory.py:82-107`. -/
def documentedTypes : Task → List String
  | .classification =>
    ["outlier", "label", "near_duplicate", "non_iid", "class_imbalance", "underperforming_group", "data_valuation",
     "null"]
  | .regression => ["label", "outlier", "near_duplicate", "non_iid", "null"]
  | .multilabel => ["label", "outlier", "near_duplicate", "non_iid", "null"]

/-- The documented types of each task are registered for it. -/
theorem C106_documented_partial (task : Task) : documentedTypes task ⊆ listPossible builtin task := by
  cases task <;> decide

/-- The documentation of the registry is not complete: `data_valuation` is registered for regression. -/
theorem C106_not_listed :
    "data_valuation" ∈ listPossible builtin .regression ∧ "data_valuation" ∉ documentedTypes .regression := by
  decide

/-- A type outside the list of possible types can be used after all: for image data `spurious_correlations` is accepted
by `find_issues` and is not listed; and the seven image checks are listed and not accepted. -/
theorem C106_not_only_possible (task : Task) :
    accepts builtin task true ["spurious_correlations"] = true ∧
    "spurious_correlations" ∉ datalabPossible builtin task true ∧
    ∀ name ∈ ["dark", "light", "low_information", "odd_aspect_ratio", "odd_size", "grayscale", "blurry"],
      name ∈ datalabPossible builtin task true ∧ accepts builtin task true [name] = false := by
  cases task <;> decide

/-- **C106.** For images the seven image checks are possible besides those of the task, and no others. -/
theorem C106_possible_images (reg : Reg) (task : Task) (name : String) :
    name ∈ datalabPossible reg task true ↔ (∃ cls, fromStr reg name task = .ok cls) ∨
      name ∈ ["dark", "light", "low_information", "odd_aspect_ratio", "odd_size", "grayscale", "blurry"] := by
  rw [← C106_possible]
  unfold datalabPossible
  rw [if_pos rfl, List.mem_append]
  rfl

/-- The class that stands for a built-in check, by the documentation of the checks. -/
def documentedClass (task : Task) (name : String) : Option String :=
  match name, task with
  | "label", .classification => some "LabelIssueManager"
  | "label", .regression => some "RegressionLabelIssueManager"
  | "label", .multilabel => some "MultilabelIssueManager"
  | "outlier", _ => some "OutlierIssueManager"
  | "near_duplicate", _ => some "NearDuplicateIssueManager"
  | "non_iid", _ => some "NonIIDIssueManager"
  | "null", _ => some "NullIssueManager"
  | "data_valuation", _ => some "DataValuationIssueManager"
  | "class_imbalance", .classification => some "ClassImbalanceIssueManager"
  | "underperforming_group", .classification => some "UnderperformingGroupIssueManager"
  | _, _ => none

/-- **C106**: without any registration each possible type stands for its own check. -/
theorem C106_builtin (task : Task) (name : String) (h : name ∈ listPossible builtin task) :
    ((builtin task).lookup name).map (fun c => (c.ident, c.issueName)) =
      (documentedClass task name).map (fun i => (i, name)) ∧ (documentedClass task name).isSome := by
  revert name
  cases task <;> decide

end Cleanlab.Props
