import Verif.Model.IdentifierFeatures
import Verif.Props.DatalabChecks
import Verif.Props.Token

/-!
# C128: the identifier column check looks at the data, not at its container
-/

namespace Cleanlab.Props

open Cleanlab.Checks Cleanlab.IdentifierFeatures

/-- A column of one kind: integers, or numbers with a fractional type, strings or truth values. -/
def Homogeneous (cells : List Cell) : Prop :=
  (∀ c ∈ cells, c.isInt = true) ∨ (∀ c ∈ cells, c.isInt = false)

/-- The column as the check should see it. -/
def seen (cells : List Cell) : Column :=
  if cells.all Cell.isInt then .ints (cells.map Cell.toInt) else .other cells.length

theorem npColumn_homogeneous (cells : List Cell) (hne : cells ≠ []) (h : Homogeneous cells) :
    npColumn cells = seen cells := by
  unfold npColumn seen npIsInt
  rcases h with h | h
  · have h1 : cells.all Cell.isInt = true := List.all_eq_true.mpr h
    have h2 : cells.all (fun c => c.isInt || c.isBool) = true :=
      List.all_eq_true.mpr (fun c hc => by rw [h c hc]; rfl)
    have h3 : cells.any Cell.isInt = true := by
      cases cells with
      | nil => exact absurd rfl hne
      | cons c t => rw [List.any_cons, h c List.mem_cons_self]; rfl
    rw [h1, h2, h3]
    rfl
  · have h1 : cells.all Cell.isInt = false := by
      cases cells with
      | nil => exact absurd rfl hne
      | cons c t => rw [List.all_cons, h c List.mem_cons_self]; rfl
    have h3 : cells.any Cell.isInt = false := by
      rw [List.any_eq_false]
      intro c hc
      rw [h c hc]
      decide
    rw [h1, h3, Bool.and_false]

theorem pdColumn_seen (cells : List Cell) (hne : cells ≠ []) : pdColumn cells = seen cells := by
  unfold pdColumn seen
  by_cases h : cells.all Cell.isInt = true
  · rw [if_pos ⟨hne, h⟩, if_pos h]
  · rw [if_neg (fun hc => h hc.2), if_neg h]

theorem dictColumn_seen (cells : List Cell) (hne : cells ≠ []) (h : Homogeneous cells) :
    dictColumn cells = .ok (seen cells) := by
  cases cells with
  | nil => exact absurd rfl hne
  | cons c t =>
    unfold dictColumn
    dsimp only
    by_cases hs : c.isStr = true
    · rw [if_pos hs]
      unfold seen
      have hc : c.isInt = false := by cases c <;> first | rfl | cases hs
      rw [List.all_cons, hc]
      rfl
    · rw [if_neg hs, npColumn_homogeneous _ hne h]

theorem size_seen (cells : List Cell) : size (seen cells) = cells.length := by
  unfold seen
  split_ifs
  · simp [size]
  · rfl

/-- The result the check should have for a table with `n` rows. -/
def tableResult (n : ℕ) (columns : List (List Cell)) : IdentifierResult := identifierFindIssues n (columns.map seen)

theorem find_of_prepare (f : Features) (n : ℕ) (columns : List (List Cell)) (hne : columns ≠ [])
    (hn : ∀ c ∈ columns, c.length = n) (h : prepare f = .ok (columns.map seen)) :
    IdentifierFeatures.findIssues (some f) = .ok (tableResult n columns) := by
  unfold IdentifierFeatures.findIssues tableResult
  dsimp only
  rw [h]
  cases columns with
  | nil => exact absurd rfl hne
  | cons c t =>
    show Except.ok (identifierFindIssues (size (seen c)) (seen c :: t.map seen)) = _
    rw [size_seen, hn c List.mem_cons_self]
    rfl

/-- A data frame, a dictionary and a list of columns with the same content have the same result. -/
theorem C128_containers_partial (n : ℕ) (columns : List (List Cell)) (hne : columns ≠ [])
    (h0 : 0 < n) (hn : ∀ c ∈ columns, c.length = n) (hh : ∀ c ∈ columns, Homogeneous c) :
    IdentifierFeatures.findIssues (some (.frame columns)) = .ok (tableResult n columns) ∧
    IdentifierFeatures.findIssues (some (.dict columns)) = .ok (tableResult n columns) ∧
    IdentifierFeatures.findIssues (some (.list (columns.map some))) = .ok (tableResult n columns) := by
  have hcne : ∀ c ∈ columns, c ≠ [] := by
    rintro c hc rfl
    have := hn _ hc
    simp at this
    omega
  refine ⟨find_of_prepare _ n columns hne hn ?_, find_of_prepare _ n columns hne hn ?_,
    find_of_prepare _ n columns hne hn ?_⟩
  · show Except.ok (columns.map pdColumn) = _
    congr 1
    exact List.map_congr_left (fun c hc => pdColumn_seen c (hcne c hc))
  · show columns.mapM dictColumn = _
    exact mapM_eq_map _ _ _ (fun c hc => dictColumn_seen c (hcne c hc) (hh c hc))
  · show (columns.map some).mapM _ = _
    rw [List.mapM_map]
    exact mapM_eq_map _ _ _ (fun c hc => by
      show Except.ok (npColumn c) = _
      rw [npColumn_homogeneous c (hcne c hc) (hh c hc)])

/-- So has an array of integers. -/
theorem C128_integer_array_partial (n : ℕ) (columns : List (List Cell)) (hne : columns ≠ [])
    (h0 : 0 < n) (hn : ∀ c ∈ columns, c.length = n) (hint : ∀ c ∈ columns, ∀ x ∈ c, x.isInt = true) :
    IdentifierFeatures.findIssues (some (.array columns)) = .ok (tableResult n columns) := by
  refine find_of_prepare _ n columns hne hn ?_
  have hall : ∀ x ∈ columns.flatten, x.isInt = true := by
    intro x hx
    obtain ⟨c, hc, hxc⟩ := List.mem_flatten.mp hx
    exact hint c hc x hxc
  have hnp : npIsInt columns.flatten = true := by
    unfold npIsInt
    have h2 : columns.flatten.all (fun c => c.isInt || c.isBool) = true :=
      List.all_eq_true.mpr (fun c hc => by rw [hall c hc]; rfl)
    have h3 : columns.flatten.any Cell.isInt = true := by
      cases columns with
      | nil => exact absurd rfl hne
      | cons c t =>
        cases c with
        | nil =>
          have := hn [] List.mem_cons_self
          simp at this
          omega
        | cons x xs =>
          rw [List.any_eq_true]
          exact ⟨x, by simp, hint _ List.mem_cons_self x List.mem_cons_self⟩
    rw [h2, h3]
    rfl
  show Except.ok (columns.map _) = _
  congr 1
  refine List.map_congr_left (fun c hc => ?_)
  rw [hnp, if_pos rfl]
  unfold seen
  rw [if_pos (List.all_eq_true.mpr (hint c hc))]

/-- Which columns are reported: those of integers whose values form an interval of at least two integers. -/
theorem C128_reported_partial (n : ℕ) (columns : List (List Cell)) (i : ℕ) :
    i ∈ (tableResult n columns).columns ↔ ∃ values : List ℤ, columns[i]? = some (values.map Cell.int) ∧
      ∃ (c : ℤ) (m : ℕ), 1 ≤ m ∧ ∀ x, x ∈ values ↔ c ≤ x ∧ x ≤ c + m := by
  unfold tableResult
  rw [(C42_report n (columns.map seen)).2.2.2 i]
  simp only [C42_interval_partial, List.getElem?_map]
  constructor
  · rintro ⟨col, hcol, values, rfl, hv⟩
    obtain ⟨cells, hcells, hs⟩ := Option.map_eq_some_iff.mp hcol
    refine ⟨values, ?_, hv⟩
    rw [hcells]
    congr 1
    unfold seen at hs
    split_ifs at hs with hall
    have hvals := Column.ints.inj hs
    rw [← hvals, List.map_map]
    rw [List.all_eq_true] at hall
    conv_lhs => rw [← List.map_id cells]
    refine List.map_congr_left (fun c hc => ?_)
    have := hall c hc
    cases c <;> first | rfl | cases this
  · rintro ⟨values, hval, hv⟩
    refine ⟨.ints values, ?_, values, rfl, hv⟩
    rw [hval]
    simp only [Option.map_some, Option.some.injEq]
    unfold seen
    rw [if_pos (by rw [List.all_map, List.all_eq_true]; intro z _; rfl)]
    congr 1
    rw [List.map_map]
    exact List.map_id values

/-- In an array with one column that is not of integers (or truth values) no column is ever reported. -/
theorem C128_not_array (columns : List (List Cell)) (c : List Cell) (x : Cell) (hc : c ∈ columns) (hx : x ∈ c)
    (hi : x.isInt = false) (hb : x.isBool = false) (r : IdentifierResult)
    (h : IdentifierFeatures.findIssues (some (.array columns)) = .ok r) : r.columns = [] ∧ r.summary = 1 := by
  have hnp : npIsInt columns.flatten = false := by
    unfold npIsInt
    have : columns.flatten.all (fun c => c.isInt || c.isBool) = false := by
      rw [List.all_eq_false]
      exact ⟨x, List.mem_flatten.mpr ⟨c, hc, hx⟩, by rw [hi, hb]; decide⟩
    rw [this]
    rfl
  have hp : prepare (.array columns) = .ok (columns.map (fun c => .other c.length)) := by
    show Except.ok (columns.map _) = _
    rw [hnp]
    rfl
  unfold IdentifierFeatures.findIssues at h
  dsimp only at h
  rw [hp] at h
  cases columns with
  | nil => cases h
  | cons d t =>
    have hr := (Except.ok.inj h).symm
    subst hr
    have hnone : ∀ col ∈ (d :: t).map (fun c => Column.other c.length), isIdentifier col = false := by
      intro col hcol
      obtain ⟨e, -, rfl⟩ := List.mem_map.mp hcol
      rfl
    constructor
    · rw [List.eq_nil_iff_forall_not_mem]
      intro i hmem
      obtain ⟨col, hcol, hid⟩ := ((C42_report _ _).2.2.2 i).mp hmem
      have := hnone col (List.mem_of_getElem? hcol)
      rw [this] at hid
      cases hid
    · exact (C42_report _ _).2.2.1.mpr hnone

/-- A table with an identifier column next to a column of floats: found in a data frame, not in an array. -/
def mixedTable : List (List Cell) :=
  [[.int 7, .int 8, .int 9], [.float (1 / 2), .float (1 / 4), .float 2]]

example : IdentifierFeatures.findIssues (some (.frame mixedTable)) = .ok (tableResult 3 mixedTable) :=
  (C128_containers_partial 3 mixedTable (by decide) (by decide) (by decide) (by
    intro c hc
    simp only [mixedTable, List.mem_cons, List.not_mem_nil, or_false] at hc
    rcases hc with rfl | rfl
    · exact Or.inl (by decide)
    · exact Or.inr (by decide))).1

example : 0 ∈ (tableResult 3 mixedTable).columns := by
  rw [C128_reported_partial]
  refine ⟨[7, 8, 9], rfl, 7, 2, by decide, ?_⟩
  intro x
  simp only [List.mem_cons, List.not_mem_nil, or_false]
  omega

theorem C128_not_mixed_array (r : IdentifierResult)
    (h : IdentifierFeatures.findIssues (some (.array mixedTable)) = .ok r) :
    r.columns = [] ∧ 0 ∈ (tableResult 3 mixedTable).columns := by
  refine ⟨(C128_not_array mixedTable _ (.float 2) (List.mem_cons_of_mem _ List.mem_cons_self) (by simp) rfl rfl r h).1, ?_⟩
  rw [C128_reported_partial]
  refine ⟨[7, 8, 9], rfl, 7, 2, by decide, ?_⟩
  intro x
  simp only [List.mem_cons, List.not_mem_nil, or_false]
  omega

example : ∃ r, IdentifierFeatures.findIssues (some (.array mixedTable)) = .ok r := ⟨_, rfl⟩

/-- A list of rows is read as a list of columns: the number of scored rows is the length of the first row. -/
theorem C128_not_rows (rows : List (List Cell)) (row : List Cell) (r : IdentifierResult)
    (h : IdentifierFeatures.findIssues (some (.list ((row :: rows).map some))) = .ok r) :
    r.scores.length = row.length := by
  have hp : prepare (.list ((row :: rows).map some)) = .ok ((row :: rows).map npColumn) := by
    show ((row :: rows).map some).mapM _ = _
    rw [List.mapM_map]
    exact mapM_eq_map _ _ _ (fun c _ => rfl)
  unfold IdentifierFeatures.findIssues at h
  dsimp only at h
  rw [hp] at h
  have hr := (Except.ok.inj h).symm
  subst hr
  show (List.replicate (size (npColumn row)) (1 : ℚ)).length = _
  rw [List.length_replicate]
  unfold npColumn
  split_ifs
  · simp [size]
  · rfl

/-- Truth values among integers: an integer column in a list or a dictionary, not in a data frame. -/
theorem C128_not_truth_values :
    (∃ r, IdentifierFeatures.findIssues (some (.dict [[.bool true, .int 2]])) = .ok r ∧ r.summary = 0) ∧
    (∃ r, IdentifierFeatures.findIssues (some (.frame [[.bool true, .int 2]])) = .ok r ∧ r.summary = 1) := by
  refine ⟨⟨identifierFindIssues 2 [.ints [1, 2]], rfl, ?_⟩, ⟨identifierFindIssues 2 [.other 2], rfl, ?_⟩⟩
  · rw [(C42_report _ _).2.1]
    refine ⟨_, List.mem_cons_self, ?_⟩
    rw [C42_interval_partial]
    refine ⟨_, rfl, 1, 1, le_refl _, ?_⟩
    intro x
    simp only [List.mem_cons, List.not_mem_nil, or_false]
    omega
  · rw [(C42_report _ _).2.2.1]
    intro c hc
    rw [List.mem_singleton] at hc
    rw [hc]
    rfl

/-- Inputs that are refused: nothing, other containers, lists of other things, no columns, and dictionaries with an empty
column. -/
theorem C128_refused :
    (∃ e, IdentifierFeatures.findIssues none = .error e) ∧ (∃ e, IdentifierFeatures.findIssues (some .other) = .error e) ∧
    (∀ items, none ∈ items → ∃ e, IdentifierFeatures.findIssues (some (.list items)) = .error e) ∧
    (∃ e, IdentifierFeatures.findIssues (some (.frame [])) = .error e) ∧
    (∀ columns, [] ∈ columns → ∃ e, IdentifierFeatures.findIssues (some (.dict columns)) = .error e) := by
  have key : ∀ f : Features, (∃ e, prepare f = .error e) → ∃ e, IdentifierFeatures.findIssues (some f) = .error e := by
    rintro f ⟨e, he⟩
    refine ⟨e, ?_⟩
    unfold IdentifierFeatures.findIssues
    dsimp only
    rw [he]
  have hmap : ∀ {α : Type} (g : α → Except String Column) (l : List α) (a : α), a ∈ l → (∃ e, g a = .error e) →
      ∃ e, l.mapM g = .error e := by
    intro α g l a ha hg
    induction l with
    | nil => cases ha
    | cons b t ih =>
      rw [List.mapM_cons]
      cases hb : g b with
      | error e => exact ⟨e, rfl⟩
      | ok v =>
        rcases List.mem_cons.mp ha with rfl | ht
        · obtain ⟨e, he⟩ := hg
          rw [he] at hb
          cases hb
        · obtain ⟨e, he⟩ := ih ht
          exact ⟨e, by rw [he]; rfl⟩
  refine ⟨⟨_, rfl⟩, ⟨_, rfl⟩, ?_, ⟨_, rfl⟩, ?_⟩
  · intro items h
    exact key _ (hmap _ items none h ⟨_, rfl⟩)
  · intro columns h
    exact key _ (hmap _ columns [] h ⟨_, rfl⟩)

/-- **C128 fails for a one-dimensional array.** Its entries are taken for columns of one row each: nothing is ever reported, not
even for 0, 1, 2, …, and the table of issues has a single row whatever the number of examples. -/
theorem C128_not_vector (c : Cell) (t : List Cell) : ∃ r, IdentifierFeatures.findIssues (some (.vector (c :: t))) = .ok r ∧
    r.columns = [] ∧ r.summary = 1 ∧ r.isIssue = [false] ∧ r.scores = [1] := by
  have hflags : ∀ b : Bool, ∀ x : Cell, isIdentifier (if b then .ints [x.toInt] else .other 1) = false := by
    intro b x
    cases b with
    | false => rfl
    | true =>
      have : isSequential [x.toInt] = false := by
        unfold isSequential
        simp
      exact this
  have hany : ∀ b : Bool, ∀ l : List Cell,
      (l.map (fun x => if b then Column.ints [x.toInt] else .other 1)).map isIdentifier = List.replicate l.length false := by
    intro b l
    rw [List.map_map, List.eq_replicate_iff]
    refine ⟨by simp, fun v hv => ?_⟩
    obtain ⟨x, -, rfl⟩ := List.mem_map.mp hv
    exact hflags b x
  have hsize : ∀ b : Bool, ∀ x : Cell, size (if b then .ints [x.toInt] else .other 1) = 1 := by
    intro b x; cases b <;> rfl
  unfold IdentifierFeatures.findIssues prepare
  dsimp only
  rw [List.map_cons]
  dsimp only
  refine ⟨_, rfl, ?_⟩
  rw [hsize]
  have h := hany (npIsInt (c :: t)) (c :: t)
  rw [List.map_cons] at h
  unfold identifierFindIssues
  dsimp only
  rw [h]
  refine ⟨?_, ?_, rfl, rfl⟩
  · rw [List.map_eq_nil_iff, List.filter_eq_nil_iff]
    intro v hv
    have := List.fst_mem_of_mem_zipIdx hv
    rw [List.eq_of_mem_replicate this]
    simp
  · rw [if_neg (by simp)]
    norm_num

/-- The first three indices are an identifier column and are not reported. -/
example : ∃ r, IdentifierFeatures.findIssues (some (.vector [.int 0, .int 1, .int 2])) = .ok r ∧ r.columns = [] := by
  obtain ⟨r, h, hc, -⟩ := C128_not_vector (.int 0) [.int 1, .int 2]
  exact ⟨r, h, hc⟩

end Cleanlab.Props
