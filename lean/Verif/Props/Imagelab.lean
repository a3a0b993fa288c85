import Verif.Model.Imagelab

/-!
# C90: image checks in the issues table and summary
-/

namespace Cleanlab.Props

open Cleanlab.Imagelab

variable {n : ℕ} {T : Type} [DecidableEq T]

theorem mem_overlapping (st : State n T) (types : List T) (t : T) :
    t ∈ overlapping st types ↔ t ∈ st.summary.map Prod.fst ∧ t ∈ types := by
  simp [overlapping]

omit [DecidableEq T] in
theorem mem_prevalent (lab : List (T × Finding n)) (t : T) (c : ℕ) :
    (t, c) ∈ prevalent lab ↔ (∃ f, (t, f) ∈ lab ∧ f.count = c) ∧ c ≤ n / 10 := by
  simp only [prevalent, List.mem_filter, List.mem_map, Prod.mk.injEq, Prod.exists, decide_eq_true_eq]
  constructor
  · rintro ⟨⟨a, b, h, rfl, rfl⟩, hc⟩
    exact ⟨⟨b, h, rfl⟩, hc⟩
  · rintro ⟨⟨f, h, rfl⟩, hc⟩
    exact ⟨⟨t, f, h, rfl, rfl⟩, hc⟩

/-- **C90**, partial: after a call the summary rows of the requested types are those of the image library that concern at most
a tenth of the examples, one row for each. -/
theorem C90_requested_rows_partial (st : State n T) (lab : List (T × Finding n)) (types : List T)
    (hlab : (lab.map Prod.fst).Nodup) (t : T) (ht : t ∈ types) :
    (∀ c, (t, c) ∈ (collect st lab types).summary ↔ (∃ f, (t, f) ∈ lab ∧ f.count = c) ∧ 10 * c ≤ n) ∧
      (collect st lab types).summary.countP (fun e => decide (e.1 = t)) ≤ 1 := by
  have hold : ∀ c, (t, c) ∉ st.summary.filter (fun e => e.1 ∉ overlapping st types) := by
    intro c h
    rw [List.mem_filter] at h
    simp only [decide_eq_true_eq] at h
    exact h.2 ((mem_overlapping st types t).mpr ⟨List.mem_map.mpr ⟨_, h.1, rfl⟩, ht⟩)
  constructor
  · intro c
    simp only [collect, List.mem_append, mem_prevalent]
    constructor
    · rintro (h | ⟨h, hc⟩)
      · exact absurd h (hold c)
      · exact ⟨h, by omega⟩
    · rintro ⟨h, hc⟩
      exact Or.inr ⟨h, by omega⟩
  · simp only [collect, List.countP_append]
    rw [List.countP_eq_zero.mpr (fun e he => by
      obtain ⟨a, c⟩ := e
      simp only [decide_eq_true_eq]
      rintro rfl
      exact hold c he), zero_add]
    refine le_trans (List.Sublist.countP_le List.filter_sublist) ?_
    rw [List.countP_map]
    have : lab.countP ((fun e => decide (e.1 = t)) ∘ fun e => (e.1, e.2.count)) = (lab.map Prod.fst).count t := by
      rw [List.count, List.countP_map]
      congr 1
    rw [this]
    exact List.nodup_iff_count_le_one.mp hlab t

/-- **C90**, partial: the results of the other checks are not touched, neither in the summary nor in the table. -/
theorem C90_others_kept (st : State n T) (lab : List (T × Finding n)) (types : List T) (t : T)
    (ht : t ∉ types) (hl : t ∉ lab.map Prod.fst) :
    (∀ c, (t, c) ∈ (collect st lab types).summary ↔ (t, c) ∈ st.summary) ∧
      ∀ f, (t, f) ∈ (collect st lab types).table ↔ (t, f) ∈ st.table := by
  have hno : t ∉ overlapping st types := fun h => ht ((mem_overlapping st types t).mp h).2
  have hl' : ∀ f, (t, f) ∉ lab := fun f h => hl (List.mem_map.mpr ⟨_, h, rfl⟩)
  constructor
  · intro c
    simp only [collect, List.mem_append, mem_prevalent, List.mem_filter, decide_eq_true_eq]
    constructor
    · rintro (h | ⟨⟨f, h, _⟩, _⟩)
      · exact h.1
      · exact absurd h (hl' f)
    · exact fun h => Or.inl ⟨h, hno⟩
  · intro f
    simp only [collect, updateTable, List.mem_append, List.mem_filter, decide_eq_true_eq]
    constructor
    · rintro (h | h)
      · exact h.1
      · exact absurd h.1 (hl' f)
    · exact fun h => Or.inl ⟨h, hno⟩

/-- **C90**, partial: the columns of a requested type are those of the image library, if the type has a row in the summary
(or no columns yet). -/
theorem C90_columns_partial (st : State n T) (lab : List (T × Finding n)) (types : List T) (t : T) (ht : t ∈ types)
    (h : t ∈ st.summary.map Prod.fst ∨ t ∉ st.table.map Prod.fst) (f : Finding n) :
    (t, f) ∈ (collect st lab types).table ↔ (t, f) ∈ lab := by
  have hkept : ∀ g, (t, g) ∉ st.table.filter (fun e => e.1 ∉ overlapping st types) := by
    intro g hg
    rw [List.mem_filter] at hg
    simp only [decide_eq_true_eq] at hg
    rcases h with h | h
    · exact hg.2 ((mem_overlapping st types t).mpr ⟨h, ht⟩)
    · exact h (List.mem_map.mpr ⟨_, hg.1, rfl⟩)
  unfold collect updateTable
  simp only
  rw [List.mem_append]
  constructor
  · rintro (h1 | h1)
    · exact absurd h1 (hkept f)
    · exact (List.mem_filter.mp h1).1
  · intro h1
    refine Or.inr (List.mem_filter.mpr ⟨h1, ?_⟩)
    simp only [decide_eq_true_eq]
    intro h2
    obtain ⟨⟨a, g⟩, hg, ha⟩ := List.mem_map.mp h2
    simp only at ha
    subst ha
    exact hkept g hg

/-- **C90**, partial: after the first call on a lab without image results the summary has exactly one row for each type that
concerns at most a tenth of the examples, and this row counts the flags in the table. -/
theorem C90_first_call_partial (st : State n T) (results : List (T × Finding n)) (hr : (results.map Prod.fst).Nodup)
    (hs : ∀ t ∈ results.map Prod.fst, t ∉ st.summary.map Prod.fst ∧ t ∉ st.table.map Prod.fst) (t : T)
    (ht : t ∈ results.map Prod.fst) :
    (runs st [results]).1.summary.countP (fun e => decide (e.1 = t)) ≤ 1 ∧
      ∀ f, (t, f) ∈ (runs st [results]).1.table →
        (t, f) ∈ results ∧ (10 * f.count ≤ n ↔ (t, f.count) ∈ (runs st [results]).1.summary) := by
  have hlab : find ([] : List (T × Finding n)) results = results := by simp [find]
  have hrun : (runs st [results]).1 = collect st results (results.map Prod.fst) := by
    simp only [runs, List.foldl_cons, List.foldl_nil, run, hlab]
  rw [hrun]
  obtain ⟨h1, h2⟩ := C90_requested_rows_partial st results (results.map Prod.fst) hr t ht
  refine ⟨h2, fun f hf => ?_⟩
  have hf' := (C90_columns_partial st results _ t ht (Or.inr (hs t ht).2) f).mp hf
  refine ⟨hf', ?_⟩
  rw [h1]
  exact ⟨fun h => ⟨⟨f, hf', rfl⟩, h⟩, fun h => h.2⟩

/-- **C90** fails: after two calls for different types the summary has two rows for the type of the first. -/
theorem C90_not_one_row : ∃ (a b : String × Finding 10), a.1 ≠ b.1 ∧
    (runs ⟨[], []⟩ [[a], [b]]).1.summary = [(a.1, 1), (a.1, 1), (b.1, 0)] := by
  refine ⟨("dark", ⟨fun i => decide (i = 0), fun i => if i = 0 then 0 else 1⟩), ("light", ⟨fun _ => false, fun _ => 1⟩),
    by decide, by decide +kernel⟩

/-- **C90** fails: when a type that was too frequent is checked again with other parameters, the table keeps the flags of the
first call while the summary shows the number of the second. -/
theorem C90_not_consistent : ∃ (f g : Finding 10), f.count = 3 ∧ g.count = 1 ∧
    (runs ⟨[], []⟩ [[("dark", f)], [("dark", g)]]).1.summary = [("dark", 1)] ∧
    (runs ⟨[], []⟩ [[("dark", f)], [("dark", g)]]).1.table.map (fun e => (e.1, e.2.count)) = [("dark", 3)] := by
  refine ⟨⟨fun i => decide (i < 3), fun i => if i < 3 then 0 else 1⟩, ⟨fun i => decide (i = 0), fun i => if i = 0 then 0 else 1⟩, by decide +kernel,
    by decide +kernel, by decide +kernel, by decide +kernel⟩

/-- A first call next to another check. -/
example : ((runs ⟨[("outlier", ⟨fun _ => false, fun _ => 1⟩)], [("outlier", 0)]⟩
    [[("dark", (⟨fun i => decide (i = 0), fun i => if i = 0 then 0 else 1⟩ : Finding 10)), ("blurry", ⟨fun _ => true, fun _ => 0⟩)]]).1.summary)
    = [("outlier", 0), ("dark", 1)] := by decide +kernel

end Cleanlab.Props
