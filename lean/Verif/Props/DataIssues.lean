import Verif.Model.DataIssues
import Verif.Props.IssueFinder

/-!
# C46, C47: the tables of `Datalab` over any history of runs
-/

namespace Cleanlab.Props

open Cleanlab.DataIssues

variable {n : ℕ}

/-- The checks that succeeded, in order of time. -/
def successes (h : List (List (Outcome n))) : List (Manager n) := h.flatten.filterMap Except.toOption

/-- `m` is the last element of `l` with property `p`. -/
def IsLast (l : List (Manager n)) (p : Manager n → Prop) (m : Manager n) : Prop :=
  ∃ l₁ l₂, l = l₁ ++ m :: l₂ ∧ p m ∧ ∀ m' ∈ l₂, ¬ p m'

/-- A manager as the built-in ones: its table has exactly the Boolean column and the score column of the check. -/
def Standard (m : Manager n) : Prop :=
  ∃ (flag : Fin n → Bool) (score : Fin n → ℚ),
    m.columns = [(flagColumn m.name, fun i => .bool (flag i)), (scoreColumn m.name, fun i => .num (score i))]

theorem runAll_fields (s : State n) (checks : List (Outcome n)) :
    (runAll s checks).issues = (checks.foldl runCheck s).issues ∧
    (runAll s checks).summary = (checks.foldl runCheck s).summary ∧
    (runAll s checks).info = (checks.foldl runCheck s).info := by
  unfold runAll
  split_ifs with h
  · subst h
    exact ⟨rfl, rfl, rfl⟩
  · exact ⟨rfl, rfl, rfl⟩

theorem foldl_runCheck (s : State n) (checks : List (Outcome n)) :
    checks.foldl runCheck s = (checks.filterMap Except.toOption).foldl collect s := by
  induction checks generalizing s with
  | nil => rfl
  | cons c t ih =>
    cases c with
    | error e =>
      rw [List.foldl_cons, List.filterMap_cons_none rfl]
      exact ih s
    | ok m =>
      rw [List.foldl_cons, List.filterMap_cons_some (f := Except.toOption) (b := m) rfl, List.foldl_cons]
      exact ih (collect s m)

/-- Equality of all fields except the health score. -/
def SameTables (s t : State n) : Prop := s.issues = t.issues ∧ s.summary = t.summary ∧ s.info = t.info

theorem collect_same (s t : State n) (h : SameTables s t) (m : Manager n) : SameTables (collect s m) (collect t m) := by
  obtain ⟨h1, h2, h3⟩ := h
  unfold collect
  simp only [h1, h2, h3]
  cases m.columns.lookup (flagColumn m.name) with
  | none => exact ⟨rfl, rfl, rfl⟩
  | some c => exact ⟨rfl, rfl, rfl⟩

theorem foldl_collect_same (s t : State n) (h : SameTables s t) (l : List (Manager n)) :
    SameTables (l.foldl collect s) (l.foldl collect t) := by
  induction l generalizing s t with
  | nil => exact h
  | cons m r ih => exact ih _ _ (collect_same s t h m)

theorem history_same (s : State n) (h : List (List (Outcome n))) :
    SameTables (h.foldl runAll s) ((successes h).foldl collect s) := by
  induction h generalizing s with
  | nil => exact ⟨rfl, rfl, rfl⟩
  | cons c t ih =>
    have e : successes (c :: t) = c.filterMap Except.toOption ++ successes t := by
      simp [successes, List.filterMap_append]
    rw [List.foldl_cons, e, List.foldl_append]
    have h1 := ih (runAll s c)
    have h2 := runAll_fields s c
    rw [foldl_runCheck] at h2
    have h3 := foldl_collect_same (runAll s c) ((c.filterMap Except.toOption).foldl collect s) h2 (successes t)
    exact ⟨h1.1.trans h3.1, h1.2.1.trans h3.2.1, h1.2.2.trans h3.2.2⟩

theorem isLast_append (l : List (Manager n)) (p : Manager n → Prop) (a m : Manager n) :
    IsLast (l ++ [a]) p m ↔ (p a ∧ m = a) ∨ (¬ p a ∧ IsLast l p m) := by
  constructor
  · rintro ⟨l₁, l₂, h, hm, hl⟩
    rcases List.eq_nil_or_concat l₂ with rfl | ⟨l₃, b, rfl⟩
    · have := List.append_inj' h rfl
      obtain ⟨_, h2⟩ := this
      have : a = m := by simpa using h2
      subst this
      exact Or.inl ⟨hm, rfl⟩
    · rw [List.concat_eq_append, ← List.cons_append, ← List.append_assoc] at h
      have := List.append_inj' h rfl
      obtain ⟨h1, h2⟩ := this
      have hab : a = b := by simpa using h2
      subst hab
      refine Or.inr ⟨hl a (by simp), l₁, l₃, h1, hm, fun m' hm' => hl m' (by simp [hm'])⟩
  · rintro (⟨ha, rfl⟩ | ⟨ha, l₁, l₂, rfl, hm, hl⟩)
    · exact ⟨l, [], rfl, ha, by simp⟩
    · refine ⟨l₁, l₂ ++ [a], by simp, hm, ?_⟩
      intro m' hm'
      rcases List.mem_append.mp hm' with h | h
      · exact hl m' h
      · rw [List.mem_singleton.mp h]
        exact ha

/-- A cell that counts as flagged: `True`, or a number other than 0. -/
def CellFlagged : Cell → Prop
  | .bool b => b = true
  | .num x => x ≠ 0

instance : DecidablePred CellFlagged := fun c => by
  cases c <;> (unfold CellFlagged; infer_instance)

theorem cellTrue_iff (c : Cell) : cellTrue c = true ↔ CellFlagged c := by
  cases c <;> simp [cellTrue, CellFlagged]

/-- The number of flagged examples in the table of a check. -/
def flaggedCount (m : Manager n) : ℕ :=
  match m.columns.lookup (flagColumn m.name) with
  | none => 0
  | some col => (Finset.univ.filter (fun i => CellFlagged (col i))).card

theorem collect_summary (s : State n) (m : Manager n)
    (hm : (m.columns.lookup (flagColumn m.name)).isSome) :
    (collect s m).summary = s.summary.filter (fun r => r.1 ≠ m.name) ++ [(m.name, m.score, flaggedCount m)] := by
  obtain ⟨c, hc⟩ := Option.isSome_iff_exists.mp hm
  unfold collect flaggedCount
  simp only [hc, numIssues, cellTrue_iff]

theorem collect_issues (s : State n) (m : Manager n) :
    (collect s m).issues = s.issues.filter (fun c => c.1 ∉ m.columns.map (·.1)) ++ m.columns := by
  unfold collect
  simp only
  cases m.columns.lookup (flagColumn m.name) <;> rfl

theorem summary_inv (l : List (Manager n)) (hl : ∀ m ∈ l, (m.columns.lookup (flagColumn m.name)).isSome) :
    let s := l.foldl collect (init n)
    (s.summary.map (·.1)).Nodup ∧
    ∀ name score count, (name, score, count) ∈ s.summary ↔
      ∃ m, IsLast l (fun m => m.name = name) m ∧ score = m.score ∧ count = flaggedCount m := by
  induction l using List.reverseRecOn with
  | nil =>
    simp only [List.foldl_nil, init, List.map_nil, List.nodup_nil, List.not_mem_nil, false_iff, true_and]
    rintro name score count ⟨m, ⟨l₁, l₂, h, _⟩, _⟩
    simp at h
  | append_singleton l a ih =>
    have ih := ih (fun m hm => hl m (by simp [hm]))
    simp only [List.foldl_append, List.foldl_cons, List.foldl_nil] at ih ⊢
    rw [collect_summary _ _ (hl a (by simp))]
    obtain ⟨ih1, ih2⟩ := ih
    constructor
    · rw [List.map_append, List.nodup_append]
      refine ⟨ih1.sublist (List.filter_sublist.map _), by simp, ?_⟩
      intro x hx y hy
      obtain ⟨z, hz, rfl⟩ := List.mem_map.mp hx
      have := (List.mem_filter.mp hz).2
      simp only [List.map_cons, List.map_nil, List.mem_singleton] at hy
      subst hy
      simpa using this
    · intro name score count
      rw [List.mem_append, List.mem_filter, ih2, List.mem_singleton]
      simp only [isLast_append, Prod.mk.injEq, ne_eq, decide_eq_true_eq]
      constructor
      · rintro (⟨⟨m, hm, h1, h2⟩, hne⟩ | ⟨h1, h2, h3⟩)
        · exact ⟨m, Or.inr ⟨fun h => hne h.symm, hm⟩, h1, h2⟩
        · exact ⟨a, Or.inl ⟨h1.symm, rfl⟩, h2, h3⟩
      · rintro ⟨m, ⟨h1, rfl⟩ | ⟨h1, hm⟩, h2, h3⟩
        · exact Or.inr ⟨h1.symm, h2, h3⟩
        · exact Or.inl ⟨⟨m, hm, h2, h3⟩, fun h => h1 h.symm⟩

theorem issues_inv (l : List (Manager n)) (col : String) (v : Col n) :
    (col, v) ∈ (l.foldl collect (init n)).issues ↔
      ∃ m, IsLast l (fun m => col ∈ m.columns.map (·.1)) m ∧ (col, v) ∈ m.columns := by
  induction l using List.reverseRecOn with
  | nil =>
    simp only [List.foldl_nil, init, List.not_mem_nil, false_iff]
    rintro ⟨m, ⟨l₁, l₂, h, _⟩, _⟩
    simp at h
  | append_singleton l a ih =>
    simp only [List.foldl_append, List.foldl_cons, List.foldl_nil]
    rw [collect_issues, List.mem_append, List.mem_filter, ih]
    simp only [isLast_append, decide_eq_true_eq]
    constructor
    · rintro (⟨⟨m, hm, h1⟩, hne⟩ | h)
      · exact ⟨m, Or.inr ⟨hne, hm⟩, h1⟩
      · exact ⟨a, Or.inl ⟨List.mem_map.mpr ⟨_, h, rfl⟩, rfl⟩, h⟩
    · rintro ⟨m, ⟨h1, rfl⟩ | ⟨h1, hm⟩, h2⟩
      · exact Or.inr h2
      · exact Or.inl ⟨⟨m, hm, h2⟩, h1⟩

theorem standard_lookup (m : Manager n) (h : Standard m) : (m.columns.lookup (flagColumn m.name)).isSome := by
  obtain ⟨f, s, h⟩ := h
  rw [h]
  simp

theorem flagColumn_toList (a : String) : (flagColumn a).toList = "is_".toList ++ a.toList ++ "_issue".toList := by
  simp [flagColumn, String.toList_append]

theorem scoreColumn_toList (a : String) : (scoreColumn a).toList = a.toList ++ "_score".toList := by
  simp [scoreColumn, String.toList_append]

theorem flagColumn_inj (a b : String) (h : flagColumn a = flagColumn b) : a = b := by
  have := congrArg String.toList h
  rw [flagColumn_toList, flagColumn_toList] at this
  exact String.toList_inj.mp (List.append_cancel_left (List.append_cancel_right this))

theorem scoreColumn_inj (a b : String) (h : scoreColumn a = scoreColumn b) : a = b := by
  have := congrArg String.toList h
  rw [scoreColumn_toList, scoreColumn_toList] at this
  exact String.toList_inj.mp (List.append_cancel_right this)

theorem flagColumn_ne_score (a b : String) : flagColumn a ≠ scoreColumn b := by
  intro h
  have := congrArg String.toList h
  rw [flagColumn_toList, scoreColumn_toList] at this
  have h2 := (List.append_inj' this rfl).2
  exact absurd h2 (by decide)

theorem standard_columns (m : Manager n) (h : Standard m) (name : String) :
    (flagColumn name ∈ m.columns.map (·.1) ↔ m.name = name) ∧
    (scoreColumn name ∈ m.columns.map (·.1) ↔ m.name = name) := by
  obtain ⟨f, s, h⟩ := h
  rw [h]
  simp only [List.map_cons, List.map_nil, List.mem_cons, List.not_mem_nil, or_false]
  constructor
  · constructor
    · rintro (h | h)
      · exact (flagColumn_inj _ _ h).symm
      · exact absurd h (flagColumn_ne_score _ _)
    · rintro rfl
      exact Or.inl rfl
  · constructor
    · rintro (h | h)
      · exact absurd h.symm (flagColumn_ne_score _ _)
      · exact (scoreColumn_inj _ _ h).symm
    · rintro rfl
      exact Or.inr rfl

theorem isLast_congr (l : List (Manager n)) (p q : Manager n → Prop) (h : ∀ m ∈ l, (p m ↔ q m)) (m : Manager n) :
    IsLast l p m ↔ IsLast l q m := by
  constructor
  · rintro ⟨l₁, l₂, rfl, hm, hl⟩
    exact ⟨l₁, l₂, rfl, (h m (by simp)).mp hm, fun m' hm' hq => hl m' hm' ((h m' (by simp [hm'])).mpr hq)⟩
  · rintro ⟨l₁, l₂, rfl, hm, hl⟩
    exact ⟨l₁, l₂, rfl, (h m (by simp)).mpr hm, fun m' hm' hq => hl m' hm' ((h m' (by simp [hm'])).mp hq)⟩

/-- After any history of runs of checks with the standard two columns, some of which may fail: the summary has one row
per check that ever succeeded, with the score and the number of flagged examples of its latest success. -/
theorem C46_summary_partial (h : List (List (Outcome n))) (hstd : ∀ m ∈ successes h, Standard m) :
    ((runHistory h).summary.map (·.1)).Nodup ∧
    ∀ name score count, (name, score, count) ∈ (runHistory h).summary ↔
      ∃ m, IsLast (successes h) (fun m => m.name = name) m ∧ score = m.score ∧ count = flaggedCount m := by
  have hs := (history_same (init n) h).2.1
  unfold runHistory
  rw [hs]
  exact summary_inv (successes h) (fun m hm => standard_lookup m (hstd m hm))

/-- The two columns of a check in the issue table are those of its latest success, and the table has no other
columns. -/
theorem C46_columns_partial (h : List (List (Outcome n))) (hstd : ∀ m ∈ successes h, Standard m) :
    (∀ name v, (flagColumn name, v) ∈ (runHistory h).issues ↔
      ∃ m, IsLast (successes h) (fun m => m.name = name) m ∧ (flagColumn name, v) ∈ m.columns) ∧
    (∀ name v, (scoreColumn name, v) ∈ (runHistory h).issues ↔
      ∃ m, IsLast (successes h) (fun m => m.name = name) m ∧ (scoreColumn name, v) ∈ m.columns) ∧
    (∀ col v, (col, v) ∈ (runHistory h).issues →
      ∃ name, (col = flagColumn name ∨ col = scoreColumn name) ∧ ∃ m ∈ successes h, m.name = name) := by
  have hs := (history_same (init n) h).1
  unfold runHistory
  rw [hs]
  refine ⟨?_, ?_, ?_⟩
  · intro name v
    rw [issues_inv]
    simp only [isLast_congr (successes h) _ _ (fun m hm => (standard_columns m (hstd m hm) name).1)]
  · intro name v
    rw [issues_inv]
    simp only [isLast_congr (successes h) _ _ (fun m hm => (standard_columns m (hstd m hm) name).2)]
  · intro col v hv
    rw [issues_inv] at hv
    obtain ⟨m, ⟨l₁, l₂, hl, _⟩, hm⟩ := hv
    have hmem : m ∈ successes h := by rw [hl]; simp
    obtain ⟨f, s, hc⟩ := hstd m hmem
    rw [hc] at hm
    simp only [List.mem_cons, Prod.mk.injEq, List.not_mem_nil, or_false] at hm
    refine ⟨m.name, ?_, m, hmem, rfl⟩
    rcases hm with hm | hm
    · exact Or.inl hm.1
    · exact Or.inr hm.1

/-- A column shows up at most once. -/
theorem C46_columns_nodup (h : List (List (Outcome n)))
    (hstd : ∀ m ∈ successes h, (m.columns.map (·.1)).Nodup) :
    ((runHistory h).issues.map (·.1)).Nodup := by
  have hs := (history_same (init n) h).1
  unfold runHistory
  rw [hs]
  generalize successes h = l at hstd
  induction l using List.reverseRecOn with
  | nil => simp [init]
  | append_singleton l a ih =>
    simp only [List.foldl_append, List.foldl_cons, List.foldl_nil]
    rw [collect_issues, List.map_append, List.nodup_append]
    refine ⟨(ih (fun m hm => hstd m (by simp [hm]))).sublist (List.filter_sublist.map _), hstd a (by simp), ?_⟩
    intro x hx y hy hxy
    subst hxy
    obtain ⟨z, hz, rfl⟩ := List.mem_map.mp hx
    have := (List.mem_filter.mp hz).2
    simp only [decide_eq_true_eq] at this
    exact this hy

/-- The health score after a run is the mean score over the checks that ever succeeded, `nan` if none did. -/
theorem C46_health (h : List (List (Outcome n))) (last : List (Outcome n)) (hl : last ≠ []) :
    (runHistory (h ++ [last])).health =
      if (runHistory (h ++ [last])).summary = [] then none
      else some (((runHistory (h ++ [last])).summary.map (·.2.1)).sum /
        ((runHistory (h ++ [last])).summary.length : ℚ)) := by
  unfold runHistory
  rw [List.foldl_append, List.foldl_cons, List.foldl_nil]
  unfold runAll
  rw [if_neg hl]
  rfl

/-- A run in which every check raises leaves the tables as they were. -/
theorem C46_failures_change_nothing (h : List (List (Outcome n))) (last : List (Outcome n))
    (hl : ∀ o ∈ last, ∃ e, o = .error e) :
    (runHistory (h ++ [last])).issues = (runHistory h).issues ∧
    (runHistory (h ++ [last])).summary = (runHistory h).summary ∧
    (runHistory (h ++ [last])).info = (runHistory h).info := by
  unfold runHistory
  rw [List.foldl_append, List.foldl_cons, List.foldl_nil]
  have he : last.foldl runCheck (h.foldl runAll (init n)) = h.foldl runAll (init n) := by
    generalize h.foldl runAll (init n) = s
    induction last with
    | nil => rfl
    | cons o t ih =>
      obtain ⟨e, rfl⟩ := hl o (by simp)
      rw [List.foldl_cons]
      exact ih (fun o ho => hl o (by simp [ho]))
  have hf := runAll_fields (h.foldl runAll (init n)) last
  rw [he] at hf
  exact hf

/-- a check with one example, used as witness -/
def witness (name : String) (b : Bool) (extra : List (String × Col 1)) : Manager 1 :=
  { name := name
    columns := [(flagColumn name, fun _ => .bool b), (scoreColumn name, fun _ => .num 0)] ++ extra
    score := 1 / 2
    info := [] }

/-- Beyond the standard columns the claim fails: a custom check whose first run has an extra column and whose second run
has not keeps the column of the first run in the table. -/
theorem C46_not_latest_columns :
    ((runHistory [[.ok (witness "mine" true [("mine_detail", fun _ => .num 7)])], [.ok (witness "mine" false [])]]).issues.map
      (·.1)) = ["mine_detail", "is_mine_issue", "mine_score"] := by
  decide

/-- A check that fails late is not harmless: a second run whose table lacks the Boolean column raises (and is reported as
failed), but by then the summary row of the first, successful run is gone and its score column is replaced. -/
theorem C46_not_atomic :
    (runHistory [[.ok (witness "mine" true [])]]).summary = [("mine", 1 / 2, 1)] ∧
    (runHistory [[.ok (witness "mine" true [])],
      [.ok { name := "mine", columns := [("mine_score", fun (_ : Fin 1) => .num 1)], score := 1, info := [] }]]).summary = [] := by
  constructor <;> decide +kernel

example : (runHistory [[.ok (witness "label" true []), .error "x"], [.ok (witness "null" false []), .ok (witness "label" false [])]]).summary =
    [("null", 1 / 2, 0), ("label", 1 / 2, 0)] := by
  decide +kernel

/-- **C46, summaries.** `get_issue_summary` of one check returns exactly the rows of this check and is refused if there
are none; without a name it returns the whole summary, and it is refused if nothing was found yet. -/
theorem C46_get_summary (s : State n) (name : String) :
    (∀ rows, getIssueSummary s (some name) = .ok rows →
      rows ≠ [] ∧ ∀ r, r ∈ rows ↔ r ∈ s.summary ∧ r.1 = name) ∧
    ((∃ e, getIssueSummary s (some name) = .error e) ↔ ∀ r ∈ s.summary, r.1 ≠ name) ∧
    (s.summary ≠ [] → getIssueSummary s none = .ok s.summary) ∧
    (s.summary = [] → ∃ e, getIssueSummary s none = .error e) := by
  unfold getIssueSummary
  by_cases hs : s.summary = []
  · simp [hs]
  · rw [if_neg hs, if_neg hs]
    dsimp only
    by_cases hr : s.summary.filter (fun r => decide (r.1 = name)) = []
    · rw [if_pos hr]
      refine ⟨by simp, ?_, by simp, fun h => absurd h hs⟩
      simp only [Except.error.injEq, exists_eq', true_iff]
      intro r hm hn
      have := List.filter_eq_nil_iff.mp hr r hm
      simp [hn] at this
    · rw [if_neg hr]
      refine ⟨?_, ?_, by simp, fun h => absurd h hs⟩
      · intro rows h
        rw [← Except.ok.inj h]
        refine ⟨hr, fun r => ?_⟩
        rw [List.mem_filter]
        simp
      · simp only [reduceCtorEq, exists_false, false_iff, not_forall]
        obtain ⟨r, hm⟩ := List.exists_mem_of_ne_nil _ hr
        rw [List.mem_filter] at hm
        exact ⟨r, hm.1, by simpa using hm.2⟩

/-! ## C47 -/

/-- The built-in checks of all tasks and of the image adapter. -/
def builtIn : List String :=
  ["outlier", "label", "near_duplicate", "non_iid", "class_imbalance", "underperforming_group", "data_valuation", "null",
   "identifier_column", "dark", "light", "low_information", "odd_aspect_ratio", "odd_size", "grayscale", "blurry",
   "spurious_correlations"]

/-- The same names as lists of characters. -/
def builtInChars : List (List Char) :=
  [['o', 'u', 't', 'l', 'i', 'e', 'r'],
   ['l', 'a', 'b', 'e', 'l'],
   ['n', 'e', 'a', 'r', '_', 'd', 'u', 'p', 'l', 'i', 'c', 'a', 't', 'e'],
   ['n', 'o', 'n', '_', 'i', 'i', 'd'],
   ['c', 'l', 'a', 's', 's', '_', 'i', 'm', 'b', 'a', 'l', 'a', 'n', 'c', 'e'],
   ['u', 'n', 'd', 'e', 'r', 'p', 'e', 'r', 'f', 'o', 'r', 'm', 'i', 'n', 'g', '_', 'g', 'r', 'o', 'u', 'p'],
   ['d', 'a', 't', 'a', '_', 'v', 'a', 'l', 'u', 'a', 't', 'i', 'o', 'n'],
   ['n', 'u', 'l', 'l'],
   ['i', 'd', 'e', 'n', 't', 'i', 'f', 'i', 'e', 'r', '_', 'c', 'o', 'l', 'u', 'm', 'n'],
   ['d', 'a', 'r', 'k'],
   ['l', 'i', 'g', 'h', 't'],
   ['l', 'o', 'w', '_', 'i', 'n', 'f', 'o', 'r', 'm', 'a', 't', 'i', 'o', 'n'],
   ['o', 'd', 'd', '_', 'a', 's', 'p', 'e', 'c', 't', '_', 'r', 'a', 't', 'i', 'o'],
   ['o', 'd', 'd', '_', 's', 'i', 'z', 'e'],
   ['g', 'r', 'a', 'y', 's', 'c', 'a', 'l', 'e'],
   ['b', 'l', 'u', 'r', 'r', 'y'],
   ['s', 'p', 'u', 'r', 'i', 'o', 'u', 's', '_', 'c', 'o', 'r', 'r', 'e', 'l', 'a', 't', 'i', 'o', 'n', 's']]

theorem builtIn_contains : ∀ a ∈ builtIn, ∀ b ∈ builtIn,
    (contains a (flagColumn b) = true ↔ a = b) ∧ (contains a (scoreColumn b) = true ↔ a = b) := by
  have hchars : builtIn.map String.toList = builtInChars := by decide +kernel
  have e1 : "is_".toList = ['i', 's', '_'] := by decide +kernel
  have e2 : "_issue".toList = ['_', 'i', 's', 's', 'u', 'e'] := by decide +kernel
  have e3 : "_score".toList = ['_', 's', 'c', 'o', 'r', 'e'] := by decide +kernel
  have hdec : ∀ a ∈ builtInChars, ∀ b ∈ builtInChars,
      (a <:+: ['i', 's', '_'] ++ b ++ ['_', 'i', 's', 's', 'u', 'e'] ↔ a = b) ∧
      (a <:+: b ++ ['_', 's', 'c', 'o', 'r', 'e'] ↔ a = b) := by
    decide +kernel
  intro a ha b hb
  have h := hdec a.toList (hchars ▸ List.mem_map_of_mem ha) b.toList (hchars ▸ List.mem_map_of_mem hb)
  unfold contains
  rw [decide_eq_true_iff, decide_eq_true_iff, flagColumn_toList, scoreColumn_toList, e1, e2, e3, h.1, h.2]
  exact ⟨String.toList_inj, String.toList_inj⟩

/-- For built-in checks `get_issues(name)` returns the columns of this check and only these. -/
theorem C47_builtin_partial (s : State n) (hcols : ∀ c ∈ s.issues, ∃ m ∈ builtIn, c.1 = flagColumn m ∨ c.1 = scoreColumn m)
    (name : String) (hname : name ∈ builtIn) (cols : List (String × Col n)) (h : getIssues s (some name) = .ok cols) :
    ∀ c, c ∈ cols ↔ c ∈ s.issues ∧ (c.1 = flagColumn name ∨ c.1 = scoreColumn name) := by
  intro c
  unfold getIssues at h
  split_ifs at h with h0
  simp only at h
  split_ifs at h with h1
  cases hl : s.info.lookup name with
  | none => simp [hl] at h
  | some i =>
    simp only [hl, Except.ok.injEq] at h
    rw [← h, List.mem_filter]
    constructor
    · rintro ⟨hc, hn⟩
      refine ⟨hc, ?_⟩
      obtain ⟨m, hm, h2 | h2⟩ := hcols c hc
      · rw [h2] at hn
        rw [(builtIn_contains name hname m hm).1.mp hn]
        exact Or.inl h2
      · rw [h2] at hn
        rw [(builtIn_contains name hname m hm).2.mp hn]
        exact Or.inr h2
    · rintro ⟨hc, h2 | h2⟩
      · exact ⟨hc, by rw [h2]; exact (builtIn_contains name hname name hname).1.mpr rfl⟩
      · exact ⟨hc, by rw [h2]; exact (builtIn_contains name hname name hname).2.mpr rfl⟩

/-- No column of the requested check is ever lost, whatever the other names are. -/
theorem C47_own_columns (s : State n) (name : String) (cols : List (String × Col n))
    (h : getIssues s (some name) = .ok cols) :
    ∀ c ∈ s.issues, (c.1 = flagColumn name ∨ c.1 = scoreColumn name) → c ∈ cols := by
  intro c hc hn
  unfold getIssues at h
  split_ifs at h with h0
  simp only at h
  split_ifs at h with h1
  cases hl : s.info.lookup name with
  | none => simp [hl] at h
  | some i =>
    simp only [hl, Except.ok.injEq] at h
    rw [← h, List.mem_filter]
    refine ⟨hc, ?_⟩
    unfold contains
    rcases hn with hn | hn
    · rw [hn, flagColumn_toList]
      simp only [decide_eq_true_eq]
      exact ⟨_, _, rfl⟩
    · rw [hn, scoreColumn_toList]
      simp only [decide_eq_true_eq]
      exact (List.prefix_append _ _).isInfix

/-- With custom checks the columns are mixed up: `get_issues("label")` also returns the columns of a custom check named
`label_length`. -/
theorem C47_not_only_own :
    ((getIssues (runHistory [[.ok (witness "label" true []), .ok (witness "label_length" true [])]]) (some "label")).map
      (fun cols => cols.map (·.1))) =
      .ok ["is_label_issue", "label_score", "is_label_length_issue", "label_length_score"] := by
  decide +kernel

example : ((getIssues (runHistory [[.ok (witness "label" true []), .ok (witness "null" true [])]]) (some "null")).map
      (fun cols => cols.map (·.1))) = .ok ["is_null_issue", "null_score"] := by
  decide +kernel

end Cleanlab.Props
