import Verif.Model.DatalabLoad
import Verif.Props.DatalabData

/-!
# C109: creating a Datalab from the documented kinds of data
-/

namespace Cleanlab.Props

open Cleanlab.DatalabData Cleanlab.DatalabLoad

variable {α : Type} [LinearOrder α] {C : Type}

/-- What the documentation says the data set is: the object itself, or what the matching function reads from it (identifiers of
data sets on the Hub are left to `C109_not_hub`). -/
def documentedTable (L : Loaders C α) (k : Kind C) : Option (Table α) :=
  match k with
  | .dataset c => some (L.asDataset c)
  | .frame c => (L.fromPandas c).toOption
  | .dict c => (L.fromDict c).toOption
  | .list c => (L.fromList c).toOption
  | .str p =>
    if L.pathExists p then
      match L.extension p with
      | ".txt" => (L.fromText p).toOption
      | ".csv" => (L.fromCsv p).toOption
      | ".json" => (L.fromJson p).toOption
      | _ => none
    else none
  | _ => none

theorem map_ok_of_toOption {β γ : Type} {e : Except String β} {b : β} (f : β → γ) (h : e.toOption = some b) :
    e.map f = .ok (f b) := by
  cases e with
  | error m => simp [Except.toOption] at h
  | ok x => simp only [Except.toOption, Option.some.injEq] at h; rw [h]; rfl

omit [LinearOrder α] in
theorem loadData_documented (L : Loaders C α) (a : Argument C) (ha : a.exact = true) (t : Table α)
    (h : documentedTable L a.kind = some t) : validateData a = .ok () ∧ loadData L a = .ok (.table t) := by
  unfold documentedTable at h
  unfold validateData loadData
  cases hk : a.kind with
  | dataset c => rw [hk] at h; simp only [Option.some.injEq] at h; simp [ha, h]
  | frame c => rw [hk] at h; simp only [ha, if_true]; exact ⟨trivial, map_ok_of_toOption _ h⟩
  | dict c =>
    rw [hk] at h
    cases hc : L.fromDict c with
    | error e => simp [hc, Except.toOption] at h
    | ok x => simp only [hc, Except.toOption, Option.some.injEq] at h; simp [ha, h, hc]
  | list c =>
    rw [hk] at h
    cases hc : L.fromList c with
    | error e => simp [hc, Except.toOption] at h
    | ok x => simp only [hc, Except.toOption, Option.some.injEq] at h; simp [ha, h, hc]
  | str p =>
    rw [hk] at h
    simp only at h
    simp only [ha, if_true]
    refine ⟨trivial, ?_⟩
    unfold loadString
    split_ifs at h with hp
    rw [if_pos hp]
    split at h
    · rename_i he; rw [if_pos he]; exact map_ok_of_toOption _ h
    · rename_i he; rw [he, if_neg (by decide), if_pos rfl]; exact map_ok_of_toOption _ h
    · rename_i he; rw [he, if_neg (by decide), if_neg (by decide), if_pos rfl]; exact map_ok_of_toOption _ h
    · simp at h
  | datasetDict c => rw [hk] at h; simp at h
  | other => rw [hk] at h; simp at h

/-- **C109** (partial: only objects whose type is exactly a supported one, and no identifiers of data sets on the Hub): a
documented kind of data is loaded with the matching function, and the lab holds that data set with the labels of the named
column. -/
theorem C109_loads_partial (toLabel : ℕ → α) (L : Loaders C α) (a : Argument C) (ha : a.exact = true) (task : Task)
    (name : Option String) (t : Table α) (h : documentedTable L a.kind = some t) :
    makeData toLabel L a task name = (makeLabels toLabel task t name).map (fun l => (t, l)) := by
  obtain ⟨h1, h2⟩ := loadData_documented L a ha t h
  unfold makeData
  rw [h1, h2]
  dsimp only [bind, Except.bind, pure, Except.pure]
  cases makeLabels toLabel task t name <;> rfl

/-- **C109**: the data set of a lab that could be created is the documented one; a documented kind that cannot be read, and every
other kind, is refused. -/
theorem C109_only (toLabel : ℕ → α) (L : Loaders C α) (hHub : ∀ p t, L.loadDataset p ≠ .ok (.table t)) (a : Argument C)
    (task : Task) (name : Option String) (t : Table α) (l : LabelInfo α)
    (h : makeData toLabel L a task name = .ok (t, l)) :
    documentedTable L a.kind = some t ∧ makeLabels toLabel task t name = .ok l := by
  have key : ∀ t', loadData L a = .ok (.table t') → documentedTable L a.kind = some t' := by
    intro t' ht
    have mapInv : ∀ e : Except String (Table α), e.map Loaded.table = .ok (.table t') → e.toOption = some t' := by
      intro e he
      cases e with
      | error m => simp [Except.map] at he
      | ok x =>
        simp only [Except.map, Except.ok.injEq, Loaded.table.injEq] at he
        simp [Except.toOption, he]
    unfold loadData at ht
    unfold documentedTable
    cases hk : a.kind with
    | dataset c => rw [hk] at ht; simp only at ht; split_ifs at ht; simpa using ht
    | frame c => rw [hk] at ht; simp only at ht; split_ifs at ht; exact mapInv _ ht
    | dict c =>
      rw [hk] at ht; simp only at ht; split_ifs at ht
      cases hc : L.fromDict c with
      | error e => simp [hc] at ht
      | ok x => simp only [hc, Except.ok.injEq, Loaded.table.injEq] at ht; simp [Except.toOption, ht, hc]
    | list c =>
      rw [hk] at ht; simp only at ht; split_ifs at ht
      cases hc : L.fromList c with
      | error e => simp [hc] at ht
      | ok x => simp only [hc, Except.ok.injEq, Loaded.table.injEq] at ht; simp [Except.toOption, ht, hc]
    | str p =>
      rw [hk] at ht; simp only at ht; split_ifs at ht
      unfold loadString at ht
      simp only
      split_ifs at ht with h1 h2 h3 h4
      · rw [if_pos h1, h2]; exact mapInv _ ht
      · rw [if_pos h1, h3]; exact mapInv _ ht
      · rw [if_pos h1, h4]; exact mapInv _ ht
      · exfalso
        cases hl : L.loadDataset p with
        | error e => simp [hl] at ht
        | ok d => rw [hl] at ht; simp only at ht; exact hHub p t' (hl.trans ht)
    | datasetDict c => rw [hk] at ht; simp at ht
    | other => rw [hk] at ht; simp at ht
  unfold makeData at h
  cases hv : validateData a with
  | error e => rw [hv] at h; simp [bind, Except.bind] at h
  | ok u =>
    rw [hv] at h
    cases hl : loadData L a with
    | error e => rw [hl] at h; simp [bind, Except.bind] at h
    | ok d =>
      rw [hl] at h
      cases d with
      | splits s => simp [bind, Except.bind] at h
      | table t' =>
        cases hm : makeLabels toLabel task t' name with
        | error e => simp [bind, Except.bind, hm] at h
        | ok l' =>
          simp only [bind, Except.bind, hm, pure, Except.pure, Except.ok.injEq, Prod.mk.injEq] at h
          obtain ⟨rfl, rfl⟩ := h
          exact ⟨key _ hl, hm⟩

/-- **C109**: kinds that are not supported raise the error that says so, a dictionary of splits the one that asks for a split. -/
theorem C109_unsupported (toLabel : ℕ → α) (L : Loaders C α) (exact : Bool) (task : Task) (name : Option String) (c : C) :
    makeData toLabel L ⟨.other, exact⟩ task name = .error "DataFormatError" ∧
      makeData toLabel L ⟨.datasetDict c, exact⟩ task name = .error "DatasetDictError" := ⟨rfl, rfl⟩

/-- **C109**: a dictionary or a list that cannot be read, and a file whose extension is not supported, raise
`DatasetLoadError`. -/
theorem C109_unreadable (toLabel : ℕ → α) (L : Loaders C α) (task : Task) (name : Option String) :
    (∀ c m, L.fromDict c = .error m → makeData toLabel L ⟨.dict c, true⟩ task name = .error "DatasetLoadError") ∧
      (∀ c m, L.fromList c = .error m → makeData toLabel L ⟨.list c, true⟩ task name = .error "DatasetLoadError") ∧
      ∀ p, L.pathExists p = true → L.extension p ∉ [".txt", ".csv", ".json"] →
        makeData toLabel L ⟨.str p, true⟩ task name = .error "DatasetLoadError" := by
  refine ⟨fun c m h => ?_, fun c m h => ?_, fun p hp he => ?_⟩
  · unfold makeData validateData loadData
    simp only [h]
    rfl
  · unfold makeData validateData loadData
    simp only [h]
    rfl
  · simp only [List.mem_cons, List.not_mem_nil, or_false, not_or] at he
    unfold makeData validateData loadData loadString
    simp only [hp, he.1, he.2.1, he.2.2, if_true, if_false]
    rfl

/-- **C109** refuted: an identifier of a data set on the Hub never works, because `load_dataset` without a split returns a
dictionary of splits, which has no hash. -/
theorem C109_not_hub (toLabel : ℕ → α) (L : Loaders C α) (hHub : ∀ p t, L.loadDataset p ≠ .ok (.table t)) (exact : Bool)
    (p : String) (hp : L.pathExists p = false) (task : Task) (name : Option String) :
    ∃ e, makeData toLabel L ⟨.str p, exact⟩ task name = .error e ∧
      (exact = true → (∃ d, L.loadDataset p = .ok d) → e = "TypeError") ∧
      (exact = true → (∃ m, L.loadDataset p = .error m) → e = "DatasetLoadError") := by
  unfold makeData validateData loadData loadString
  cases exact with
  | false => exact ⟨_, rfl, by simp, by simp⟩
  | true =>
    simp only [hp, Bool.false_eq_true, if_false, if_true]
    cases hl : L.loadDataset p with
    | error e => exact ⟨_, rfl, by simp, by simp⟩
    | ok d =>
      cases d with
      | splits s => exact ⟨_, rfl, fun _ _ => rfl, by simp⟩
      | table t => exact absurd hl (hHub p t)

/-- **C109** refuted: an instance of a subclass of a supported type passes the check of the types and then raises `KeyError`. -/
theorem C109_not_subclass (toLabel : ℕ → α) (L : Loaders C α) (k : Kind C) (hk : ∀ c, k ≠ .datasetDict c) (ho : k ≠ .other)
    (task : Task) (name : Option String) :
    validateData (⟨k, false⟩ : Argument C) = .ok () ∧ makeData toLabel L ⟨k, false⟩ task name = .error "KeyError" := by
  cases k with
  | datasetDict c => exact absurd rfl (hk c)
  | other => exact absurd rfl ho
  | _ => exact ⟨rfl, rfl⟩

/-- **C109** refuted: a name that is no column raises `KeyError`; the `ValueError` that names the missing column is never
raised, because the column is read before the check. -/
theorem C109_not_missing_column (toLabel : ℕ → α) (task : Task) (t : Table α) (name : String)
    (h : t.columns.lookup name = none) :
    makeLabels toLabel task t (some name) = .error "KeyError" ∧ validateLabels t name = .error "ValueError" := by
  unfold makeLabels validateLabels
  simp only [h]
  exact ⟨trivial, trivial⟩

/-- The classes of a column. -/
def columnClasses (task : Task) : Column α → List α
  | .scalars v => if task = .classification then v else []
  | .lists v => v.flatten
  | .classLabel names _ => names

theorem length_inverseMap_labelMap_eq_zero (l : List α) : (inverseMap (labelMap l)).length = 0 ↔ l = [] := by
  unfold inverseMap labelMap
  rw [List.length_map, List.length_zipIdx, List.length_eq_zero_iff]
  constructor
  · intro h
    rw [List.eq_nil_iff_forall_not_mem]
    intro x hx
    have := (mem_unique l x).mpr hx
    rw [h] at this
    simp at this
  · rintro rfl; rfl

/-- **C109**: after a successful construction, `has_labels` says whether classes are known: a column was named, the task is not
regression, and the column has at least one example and at least one class. -/
theorem C109_has_labels (toLabel : ℕ → α) (task : Task) (t : Table α) (name : Option String) (l : LabelInfo α)
    (h : makeLabels toLabel task t name = .ok l) :
    isAvailable l = true ↔ task ≠ .regression ∧
      ∃ s c, name = some s ∧ t.columns.lookup s = some c ∧ c.length ≠ 0 ∧ columnClasses task c ≠ [] := by
  unfold makeLabels at h
  cases name with
  | none =>
    simp only [Except.ok.injEq] at h
    subst h
    simp [isAvailable, Labels.length]
  | some s =>
    simp only at h
    cases hc : t.columns.lookup s with
    | none => rw [hc] at h; simp at h
    | some c =>
      rw [hc] at h
      simp only at h
      have hx : extract toLabel task c = .ok l := by
        cases he : extract toLabel task c with
        | error e => rw [he] at h; simp [bind, Except.bind] at h
        | ok r =>
          rw [he] at h
          cases hv : validateLabels t s with
          | error e => rw [hv] at h; simp [bind, Except.bind] at h
          | ok u => rw [hv] at h; simpa [bind, Except.bind, pure, Except.pure] using h
      have : (∃ s' c', some s = some s' ∧ t.columns.lookup s' = some c' ∧ c'.length ≠ 0 ∧ columnClasses task c' ≠ []) ↔
          c.length ≠ 0 ∧ columnClasses task c ≠ [] := by
        constructor
        · rintro ⟨s', c', hs, hl, h1, h2⟩
          obtain rfl := Option.some.inj hs
          rw [hc] at hl
          obtain rfl := Option.some.inj hl
          exact ⟨h1, h2⟩
        · rintro ⟨h1, h2⟩
          exact ⟨s, c, rfl, hc, h1, h2⟩
      rw [this]
      unfold isAvailable
      simp only [Bool.not_eq_true', Bool.or_eq_false_iff, beq_eq_false_iff_ne, ne_eq]
      unfold extract at hx
      cases task with
      | classification =>
        cases c with
        | scalars v =>
          simp only at hx
          unfold multiClass at hx
          dsimp only at hx
          rw [mapM_eq_map v (code (labelMap v)) (fun x => (unique v).idxOf x) (fun x hx => code_ok v x hx)] at hx
          simp only [bind, Except.bind, pure, Except.pure, Except.map, Except.ok.injEq] at hx
          subst hx
          simp only [Labels.length, List.length_map, Column.length, columnClasses]
          rw [length_inverseMap_labelMap_eq_zero, List.length_eq_zero_iff]
          simp
        | lists v =>
          simp only at hx
          split_ifs at hx with hv
          obtain rfl := Except.ok.inj hx
          simp [Labels.length, Column.length, hv]
        | classLabel names v =>
          simp only [Except.ok.injEq] at hx
          subst hx
          simp [Labels.length, Column.length, classLabel, inverseMap, columnClasses]
      | regression =>
        cases c with
        | scalars v => simp only [Except.ok.injEq] at hx; subst hx; simp
        | lists v =>
          simp only at hx
          split_ifs at hx with hv
          obtain rfl := Except.ok.inj hx
          simp
        | classLabel names v => simp only [Except.ok.injEq] at hx; subst hx; simp
      | multilabel =>
        cases c with
        | scalars v =>
          simp only at hx
          split_ifs at hx with hv
          obtain rfl := Except.ok.inj hx
          simp [Labels.length, Column.length, hv]
        | lists v =>
          simp only at hx
          unfold multiLabel at hx
          dsimp only at hx
          have hmem : ∀ l ∈ v, ∀ x ∈ l, x ∈ v.flatten := fun l hl x hx => List.mem_flatten.mpr ⟨l, hl, hx⟩
          rw [mapM_eq_map v _ (fun l => l.map (fun x => (unique v.flatten).idxOf x)) (fun l hl =>
            mapM_eq_map l (code (labelMap v.flatten)) _ (fun x hx => code_ok _ x (hmem l hl x hx)))] at hx
          simp only [bind, Except.bind, pure, Except.pure, Except.map, Except.ok.injEq] at hx
          subst hx
          simp only [Labels.length, List.length_map, Column.length, columnClasses]
          rw [length_inverseMap_labelMap_eq_zero]
          simp
        | classLabel names v =>
          simp only at hx
          split_ifs at hx with hv
          obtain rfl := Except.ok.inj hx
          simp [Labels.length, Column.length, hv]

/-- **C109**: every example keeps its label: one label per row, and in regression the values themselves. -/
theorem C109_one_label_per_row (toLabel : ℕ → α) (task : Task) (t : Table α) (name : String) (l : LabelInfo α)
    (h : makeLabels toLabel task t (some name) = .ok l) :
    l.labels.length = t.rows ∧
      ∀ v, task = .regression → t.columns.lookup name = some (.scalars v) → l.labels = .raw v := by
  unfold makeLabels at h
  simp only at h
  cases hc : t.columns.lookup name with
  | none => rw [hc] at h; simp at h
  | some c =>
    rw [hc] at h
    simp only at h
    cases he : extract toLabel task c with
    | error e => rw [he] at h; simp [bind, Except.bind] at h
    | ok r =>
      rw [he] at h
      cases hv : validateLabels t name with
      | error e => rw [hv] at h; simp [bind, Except.bind] at h
      | ok u =>
        rw [hv] at h
        have hrl : r = l := by simpa [bind, Except.bind, pure, Except.pure] using h
        subst hrl
        unfold validateLabels at hv
        rw [hc] at hv
        simp only at hv
        split_ifs at hv with hlen
        rw [← hlen]
        unfold extract at he
        cases task with
        | classification =>
          cases c with
          | scalars v =>
            simp only at he
            unfold multiClass at he
            dsimp only at he
            rw [mapM_eq_map v (code (labelMap v)) (fun x => (unique v).idxOf x) (fun x hx => code_ok v x hx)] at he
            simp only [bind, Except.bind, pure, Except.pure, Except.map, Except.ok.injEq] at he
            subst he
            simp [Labels.length, Column.length]
          | lists v =>
            simp only at he
            split_ifs at he with hv
            obtain rfl := Except.ok.inj he
            simp [Labels.length, Column.length, hv]
          | classLabel names v =>
            simp only [Except.ok.injEq] at he
            subst he
            simp [Labels.length, Column.length, classLabel]
        | regression =>
          cases c with
          | scalars v =>
            simp only [Except.ok.injEq] at he
            subst he
            refine ⟨by simp [Labels.length, Column.length], fun w _ hw => ?_⟩
            simp only [Option.some.injEq, Column.scalars.injEq] at hw
            rw [hw]
          | lists v =>
            simp only at he
            split_ifs at he with hv
            obtain rfl := Except.ok.inj he
            simp [Labels.length, Column.length, hv]
          | classLabel names v =>
            simp only [Except.ok.injEq] at he
            subst he
            simp [Labels.length, Column.length]
        | multilabel =>
          cases c with
          | scalars v =>
            simp only at he
            split_ifs at he with hv
            obtain rfl := Except.ok.inj he
            simp [Labels.length, Column.length, hv]
          | lists v =>
            simp only at he
            unfold multiLabel at he
            dsimp only at he
            have hmem : ∀ l ∈ v, ∀ x ∈ l, x ∈ v.flatten := fun l hl x hx => List.mem_flatten.mpr ⟨l, hl, hx⟩
            rw [mapM_eq_map v _ (fun l => l.map (fun x => (unique v.flatten).idxOf x)) (fun l hl =>
              mapM_eq_map l (code (labelMap v.flatten)) _ (fun x hx => code_ok _ x (hmem l hl x hx)))] at he
            simp only [bind, Except.bind, pure, Except.pure, Except.map, Except.ok.injEq] at he
            subst he
            simp [Labels.length, Column.length]
          | classLabel names v =>
            simp only at he
            split_ifs at he with hv
            obtain rfl := Except.ok.inj he
            simp [Labels.length, Column.length, hv]

/-- Loaders for the examples: dictionaries and files hold the table itself. -/
def exampleTable : Table ℕ := ⟨[("text", .scalars [1, 2, 3]), ("label", .scalars [7, 3, 7])], 3⟩

def exampleLoaders : Loaders (Table ℕ) ℕ where
  asDataset t := t
  fromPandas t := .ok t
  fromDict t := if t.columns = [] then .error "ArrowInvalid" else .ok t
  fromList t := .ok t
  pathExists p := p = "data.csv" || p = "data.xls"
  extension p := if p = "data.csv" then ".csv" else ".xls"
  fromText _ := .error "OSError"
  fromCsv _ := .ok exampleTable
  fromJson _ := .error "OSError"
  loadDataset p := if p = "glue" then .ok (.splits [("train", exampleTable)]) else .error "FileNotFoundError"

example : ((makeData id exampleLoaders ⟨.str "data.csv", true⟩ .classification (some "label")).map
    (fun r => (r.1.rows, r.2.labels, r.2.map, isAvailable r.2))).toOption =
    some (3, .codes [1, 0, 1], [(0, 3), (1, 7)], true) := by decide +kernel

example : ((makeData id exampleLoaders ⟨.str "data.csv", true⟩ .regression (some "label")).map
    (fun r => (r.2.labels, isAvailable r.2))).toOption = some (.raw [7, 3, 7], false) := by decide +kernel

example : (makeData id exampleLoaders ⟨.str "glue", true⟩ .classification (some "label")).toOption.isNone ∧
    (∀ p t, exampleLoaders.loadDataset p ≠ .ok (.table t)) := by
  refine ⟨by decide +kernel, fun p t => ?_⟩
  unfold exampleLoaders
  dsimp only
  split_ifs <;> simp

example : loadString exampleLoaders "data.xls" = .error "DatasetLoadError" := by rfl

end Cleanlab.Props
