import Verif.Model.CustomCheck

/-!
# C169: custom checks
-/

namespace Cleanlab.Props

open Cleanlab.CustomCheck

/-- All levels are lists of strings. -/
def Printable (levels : Levels) : Prop := ∀ l ∈ levels, ∃ keys : List String, l.2 = .list (keys.map Key.str)

theorem keys_strings : ∀ keys : List Key, Key.other ∉ keys → ∃ l : List String, keys = l.map Key.str
  | [], _ => ⟨[], rfl⟩
  | .str s :: rest, h => by
    obtain ⟨l, hl⟩ := keys_strings rest (fun hm => h (List.mem_cons_of_mem _ hm))
    exact ⟨s :: l, by rw [hl]; rfl⟩
  | .other :: rest, h => absurd List.mem_cons_self h

theorem checkLevels_iff : ∀ levels : Levels, checkLevels levels = .ok () ↔ Printable levels
  | [] => by simp [checkLevels, Printable]
  | (i, v) :: rest => by
    have ih := checkLevels_iff rest
    have hcons : Printable ((i, v) :: rest) ↔ (∃ keys : List String, v = .list (keys.map Key.str)) ∧ Printable rest := by
      unfold Printable; simp
    rw [hcons]
    cases v with
    | list keys =>
      unfold checkLevels
      by_cases ho : Key.other ∈ keys
      · rw [if_pos ho]
        constructor
        · intro h; cases h
        · rintro ⟨⟨l, hl⟩, -⟩
          rw [LevelValue.list.inj hl] at ho
          simp at ho
      · rw [if_neg ho, ih]
        constructor
        · intro h
          obtain ⟨l, hl⟩ := keys_strings keys ho
          exact ⟨⟨l, by rw [hl]⟩, h⟩
        · exact fun h => h.2
    | iterable keys => simp [checkLevels]
    | atom => simp [checkLevels]

theorem checkLevels_ok (levels : Levels) (u : Unit) (h : checkLevels levels = .ok u) : Printable levels :=
  (checkLevels_iff levels).mp h

/-- **C169.** A class statement without `ABC` succeeds exactly if it names its issue and its report levels, if it sets any, are lists of strings; its
score column is then the name with `_score`, whatever it says itself, and its levels are its own or those of its parent. -/
theorem C169_define (parent : Cls) (b : Body) (hb : b.abc = false) (c : Cls) :
    define parent b = .ok c ↔ ∃ name, b.issueName = some name ∧ (∀ l, b.levels = some l → Printable l) ∧
      c = ⟨some name, some (name ++ "_score"), b.levels.getD parent.levels⟩ := by
  have hbase : Printable base.levels := by
    intro l hl
    refine ⟨[], ?_⟩
    simp only [base, List.mem_cons, List.not_mem_nil, or_false] at hl
    rcases hl with rfl | rfl | rfl | rfl <;> rfl
  have hlev : Printable (b.levels.getD base.levels) ↔ ∀ l, b.levels = some l → Printable l := by
    cases b.levels with
    | none => simp [hbase]
    | some l => simp
  unfold define
  rw [hb]
  simp only [Bool.false_eq_true, if_false]
  cases hc : checkLevels (b.levels.getD base.levels) with
  | error e =>
    constructor
    · intro h; cases h
    · rintro ⟨name, -, h2, -⟩
      rw [(checkLevels_iff _).mpr (hlev.mpr h2)] at hc
      cases hc
  | ok u =>
    have hp := hlev.mp (checkLevels_ok _ _ hc)
    cases hn : b.issueName with
    | none => simp
    | some name =>
      constructor
      · intro h
        exact ⟨name, rfl, hp, (Except.ok.inj h).symm⟩
      · rintro ⟨name', h1, -, h3⟩
        rw [Option.some.inj h1, h3]

/-- **C169.** The name is not inherited: a subclass of a finished check has to give one again. -/
theorem C169_name_required (parent : Cls) (b : Body) (hb : b.abc = false) (hn : b.issueName = none) : ∃ e, define parent b = .error e := by
  cases h : define parent b with
  | error e => exact ⟨e, rfl⟩
  | ok c =>
    obtain ⟨name, h1, -⟩ := (C169_define parent b hb c).mp h
    rw [hn] at h1
    cases h1

/-- **C169.** A check that only names its issue can be reported at verbosity 0 to 4 and at no other; nothing of `info` is shown up to 3, and
everything that is not hidden, apart from `statistics`, at 4. -/
theorem C169_default (name : String) :
    ∃ c, define base ⟨false, some name, none, none⟩ = .ok c ∧ ∀ (keys hidden : List String) (v : ℤ),
      ((∃ e, shownKeys c keys hidden v = .error e) ↔ ¬(0 ≤ v ∧ v ≤ 4)) ∧
      (0 ≤ v → v ≤ 3 → shownKeys c keys hidden v = .ok []) ∧
      shownKeys c keys hidden 4 = .ok (keys.filter (fun k => decide (k ∉ hidden) && decide (k ≠ "statistics"))) := by
  refine ⟨⟨some name, some (name ++ "_score"), base.levels⟩, rfl, fun keys hidden v => ?_⟩
  have h4 : shownKeys ⟨some name, some (name ++ "_score"), base.levels⟩ keys hidden 4 =
      .ok (keys.filter (fun k => decide (k ∉ hidden) && decide (k ≠ "statistics"))) := by
    have hall : (((keys.filter (fun k => decide (k ∉ hidden))).map Key.str).all (fun k => decide (k ∈ keys.map Key.str))) = true := by
      rw [List.all_eq_true]
      intro k hk
      obtain ⟨x, hx, rfl⟩ := List.mem_map.mp hk
      exact decide_eq_true (List.mem_map_of_mem (List.mem_of_mem_filter hx))
    have e : shownKeys ⟨some name, some (name ++ "_score"), base.levels⟩ keys hidden 4 =
        if (((keys.filter (fun k => decide (k ∉ hidden))).map Key.str).all (fun k => decide (k ∈ keys.map Key.str))) = true then
          .ok (keys.filter (fun k => decide (Key.str k ∈ (keys.filter (fun k => decide (k ∉ hidden))).map Key.str) && decide (k ≠ "statistics")))
        else .error "KeyError" := rfl
    rw [e, if_pos hall]
    congr 1
    apply List.filter_congr
    intro k hk
    congr 1
    rw [decide_eq_decide]
    constructor
    · intro h
      obtain ⟨x, hx, hxk⟩ := List.mem_map.mp h
      rw [← Key.str.inj hxk]
      exact of_decide_eq_true (List.mem_filter.mp hx).2
    · intro h
      exact List.mem_map_of_mem (List.mem_filter.mpr ⟨hk, decide_eq_true h⟩)
  have hlow : 0 ≤ v → v ≤ 3 → shownKeys ⟨some name, some (name ++ "_score"), base.levels⟩ keys hidden v = .ok [] := by
    intro h0 h3
    have hk : ∀ w : ℤ, shownKeys ⟨some name, some (name ++ "_score"), base.levels⟩ keys hidden w = .ok [] ↔
        shownKeys ⟨some name, some (name ++ "_score"), base.levels⟩ keys hidden w = .ok (keys.filter fun _ => false) := by
      intro w; rw [List.filter_false]
    rw [hk]
    rcases (by omega : v = 0 ∨ v = 1 ∨ v = 2 ∨ v = 3) with rfl | rfl | rfl | rfl <;> rfl
  refine ⟨⟨?_, ?_⟩, hlow, h4⟩
  · rintro ⟨e, he⟩ ⟨h0, h4'⟩
    rcases (by omega : v ≤ 3 ∨ v = 4) with h | rfl
    · rw [hlow h0 h] at he; cases he
    · rw [h4] at he; cases he
  · intro hv
    refine ⟨"ValueError: verbosity level not supported", ?_⟩
    have hnot : v ∉ base.levels.map Prod.fst ++ [3 + 1] := by
      simp only [base, List.map_cons, List.map_nil, List.cons_append, List.nil_append, List.mem_cons, List.not_mem_nil, or_false]
      omega
    exact if_pos hnot

/-- **C169.** In a chain of class statements without `ABC` all levels are lists of strings. -/
theorem C169_levels_checked (bs : List Body) (hb : ∀ b ∈ bs, b.abc = false) (c : Cls) (h : defineAll base bs = .ok c) : Printable c.levels := by
  have key : ∀ (bs : List Body) (p : Cls), Printable p.levels → (∀ b ∈ bs, b.abc = false) → defineAll p bs = .ok c → Printable c.levels := by
    intro bs
    induction bs with
    | nil =>
      intro p hp _ h
      rw [← Except.ok.inj h]
      exact hp
    | cons b rest ih =>
      intro p hp hb h
      unfold defineAll at h
      cases hd : define p b with
      | error e => rw [hd] at h; cases h
      | ok q =>
        rw [hd] at h
        refine ih q ?_ (fun b' hb' => hb b' (List.mem_cons_of_mem _ hb')) h
        obtain ⟨name, -, h2, h3⟩ := (C169_define p b (hb b List.mem_cons_self) q).mp hd
        rw [h3]
        cases hl : b.levels with
        | none => exact hp
        | some l => exact h2 l hl
  refine key bs base ?_ hb h
  intro l hl
  refine ⟨[], ?_⟩
  simp only [base, List.mem_cons, List.not_mem_nil, or_false] at hl
  rcases hl with rfl | rfl | rfl | rfl <;> rfl

/-- **C169**, refuted with an abstract class in between: a finished check may have a string for a level; reports then look for its letters. -/
theorem C169_not_levels_checked :
    (defineAll base [⟨true, some "a", none, some [(0, .iterable [.str "k", .str "e", .str "y"])]⟩, ⟨false, some "b", none, none⟩] =
      .ok ⟨some "b", some "b_score", [(0, .iterable [.str "k", .str "e", .str "y"])]⟩) ∧
    shownKeys ⟨some "b", some "b_score", [(0, .iterable [.str "k", .str "e", .str "y"])]⟩ ["key"] [] 0 = .error "KeyError" := by
  decide

/-- The levels `0, 1, ...` in this order with the given keys. -/
def numbered (L : List (List String)) : Levels := L.zipIdx.map (fun p => ((p.2 : ℤ), .list (p.1.map Key.str)))

/-- **C169**, refuted: levels that are not written in order are shown at the wrong verbosity; levels that do not begin with 0 too early; and
a check without levels can be defined and never reported. -/
theorem C169_not_levels :
    -- level 1 is written first, so it is shown at level 0, and level 0 is not
    shownKeys ⟨some "a", some "a_score", [(1, .list [.str "more"]), (0, .list [.str "basic"])]⟩ ["basic", "more"] [] 0 = .ok ["more"] ∧
    -- levels 1 and 2: at verbosity 1 both are shown
    shownKeys ⟨some "a", some "a_score", [(1, .list [.str "basic"]), (2, .list [.str "more"])]⟩ ["basic", "more"] [] 1 = .ok ["basic", "more"] ∧
    -- no levels
    (define base ⟨false, some "a", none, some []⟩ = .ok ⟨some "a", some "a_score", []⟩ ∧
      ∀ v, ∃ e, shownKeys ⟨some "a", some "a_score", []⟩ ["basic", "more"] [] v = .error e) := by
  refine ⟨by decide, by decide, by decide, fun v => ⟨_, rfl⟩⟩

theorem chain_lists : ∀ L : List (List String), chain (L.map (fun l => .list (l.map Key.str))) = .ok (L.flatten.map Key.str)
  | [] => rfl
  | l :: rest => by
    rw [List.map_cons, chain, chain_lists rest]
    simp

/-- **C169**, refuted: with a negative level nothing is shown at this verbosity, and at verbosity 0 only what is listed for the negative level. -/
theorem C169_not_negative_level :
    ∃ (b : Body) (c : Cls), define base b = .ok c ∧ c.levels = [(-1, .list [.str "a"]), (0, .list [.str "b"])] ∧
      shownKeys c ["a", "b"] [] (-1) = .ok [] ∧ shownKeys c ["a", "b"] [] 0 = .ok ["a"] :=
  ⟨⟨false, some "x", none, some [(-1, .list [.str "a"]), (0, .list [.str "b"])]⟩, ⟨some "x", some "x_score",
    [(-1, .list [.str "a"]), (0, .list [.str "b"])]⟩, by decide, rfl, by decide, by decide⟩

theorem numbered_fst (L : List (List String)) : (numbered L).map Prod.fst = (List.range L.length).map (fun i : ℕ => (i : ℤ)) := by
  unfold numbered
  rw [List.map_map]
  have : (Prod.fst ∘ fun p : List String × ℕ => ((p.2 : ℤ), LevelValue.list (p.1.map Key.str))) = (fun i : ℕ => (i : ℤ)) ∘ Prod.snd := rfl
  rw [this, ← List.map_map, List.zipIdx_map_snd, List.range_eq_range']

theorem numbered_snd (L : List (List String)) : (numbered L).map Prod.snd = L.map (fun l => .list (l.map Key.str)) := by
  unfold numbered
  rw [List.map_map]
  have : (Prod.snd ∘ fun p : List String × ℕ => ((p.2 : ℤ), LevelValue.list (p.1.map Key.str))) =
      (fun l : List String => LevelValue.list (l.map Key.str)) ∘ Prod.fst := rfl
  rw [this, ← List.map_map, List.zipIdx_map_fst]

theorem max_range (m : ℕ) : ((List.range (m + 1)).map (fun i : ℕ => (i : ℤ))).max? = some (m : ℤ) := by
  rw [List.max?_eq_some_iff]
  constructor
  · exact List.mem_map.mpr ⟨m, by simp, rfl⟩
  · intro b hb
    obtain ⟨i, hi, rfl⟩ := List.mem_map.mp hb
    have := List.mem_range.mp hi
    exact_mod_cast (by omega : i ≤ m)

/-- **C169**, what holds: with levels `0, 1, ..., m` in this order a report is refused exactly for a verbosity that is neither a level nor `m + 1`,
or if some key to be shown is not in the collected information; otherwise it shows, at verbosity `v`, what is listed for the levels up to `v`, and everything at `m + 1`,
except columns, what the caller hides and the statistics. -/
theorem C169_levels_partial (c : Cls) (L : List (List String)) (hL : L ≠ []) (hc : c.levels = numbered L) (keys hidden : List String) (v : ℤ) :
    (∀ shown, shownKeys c keys hidden v = .ok shown → (0 ≤ v ∧ v ≤ L.length) ∧ ∀ k, k ∈ shown ↔
      k ∈ keys ∧ k ∉ hidden ∧ k ≠ "statistics" ∧ ((∃ i : ℕ, (i : ℤ) ≤ v ∧ ∃ l, L[i]? = some l ∧ k ∈ l) ∨ v = L.length)) ∧
    ((0 ≤ v ∧ v ≤ L.length ∧ ∀ i : ℕ, (i : ℤ) ≤ v → ∀ l, L[i]? = some l → ∀ k ∈ l, k ∉ hidden → k ∈ keys) →
      ∃ shown, shownKeys c keys hidden v = .ok shown) := by
  obtain ⟨m, hm⟩ : ∃ m, L.length = m + 1 := ⟨L.length - 1, by have := List.length_pos_iff_ne_nil.mpr hL; omega⟩
  have hmax : (c.levels.map Prod.fst).max? = some (m : ℤ) := by rw [hc, numbered_fst, hm, max_range]
  have hv : v ∈ c.levels.map Prod.fst ++ [(m : ℤ) + 1] ↔ 0 ≤ v ∧ v ≤ L.length := by
    rw [hc, numbered_fst, List.mem_append, List.mem_singleton, List.mem_map, hm]
    constructor
    · rintro (⟨i, hi, rfl⟩ | rfl)
      · have := List.mem_range.mp hi
        omega
      · omega
    · rintro ⟨h1, h2⟩
      by_cases h3 : v = (m : ℤ) + 1
      · exact Or.inr h3
      · exact Or.inl ⟨v.toNat, by rw [List.mem_range]; omega, by omega⟩
  have hslice : ∀ (_ : 0 ≤ v), chain (pySlice (c.levels.map Prod.snd) (v + 1)) = .ok ((L.take (v + 1).toNat).flatten.map Key.str) := by
    intro h0
    unfold pySlice
    rw [if_pos (by omega), hc, numbered_snd, ← List.map_take, chain_lists]
  have hlisted : ∀ (_ : 0 ≤ v) (k : String), k ∈ (L.take (v + 1).toNat).flatten ↔ ∃ i : ℕ, (i : ℤ) ≤ v ∧ ∃ l, L[i]? = some l ∧ k ∈ l := by
    intro h0 k
    rw [List.mem_flatten]
    constructor
    · rintro ⟨l, hl, hk⟩
      obtain ⟨i, hi⟩ := List.mem_iff_getElem?.mp hl
      rw [List.getElem?_take] at hi
      split_ifs at hi with hlt
      exact ⟨i, by omega, l, hi, hk⟩
    · rintro ⟨i, hi, l, hl, hk⟩
      refine ⟨l, List.mem_iff_getElem?.mpr ⟨i, ?_⟩, hk⟩
      rw [List.getElem?_take, if_pos (by omega)]
      exact hl
  unfold shownKeys
  rw [hmax]
  dsimp only
  by_cases hvv : 0 ≤ v ∧ v ≤ L.length
  · rw [if_neg (by rw [not_not]; exact hv.mpr hvv), hslice hvv.1]
    dsimp only
    set wanted := ((L.take (v + 1).toNat).flatten.map Key.str).filter (fun k => decide (k ∉ hidden.map Key.str)) ++
      (if v = (m : ℤ) + 1 then (keys.filter (fun k => decide (k ∉ hidden))).map Key.str else []) with hw
    have hinj : ∀ (k : String) (l : List String), Key.str k ∈ l.map Key.str ↔ k ∈ l := by
      intro k l
      rw [List.mem_map]
      exact ⟨fun ⟨a, ha, he⟩ => by rwa [← Key.str.inj he], fun hk => ⟨k, hk, rfl⟩⟩
    have hwant : ∀ k, Key.str k ∈ wanted ↔ (k ∉ hidden ∧ ∃ i : ℕ, (i : ℤ) ≤ v ∧ ∃ l, L[i]? = some l ∧ k ∈ l) ∨
        (v = L.length ∧ k ∈ keys ∧ k ∉ hidden) := by
      intro k
      rw [hw, List.mem_append, List.mem_filter, hinj, hlisted hvv.1, decide_eq_true_eq, hinj, hm]
      by_cases h1 : v = (m : ℤ) + 1
      · rw [if_pos h1, hinj, List.mem_filter, decide_eq_true_eq]
        push_cast
        generalize (∃ i : ℕ, (i : ℤ) ≤ v ∧ ∃ l, L[i]? = some l ∧ k ∈ l) = Q
        tauto
      · rw [if_neg h1]
        push_cast
        simp only [List.not_mem_nil, or_false]
        generalize (∃ i : ℕ, (i : ℤ) ≤ v ∧ ∃ l, L[i]? = some l ∧ k ∈ l) = Q
        tauto
    constructor
    · intro shown h
      split_ifs at h with hall
      refine ⟨hvv, fun k => ?_⟩
      rw [← Except.ok.inj h, List.mem_filter, Bool.and_eq_true, decide_eq_true_eq, decide_eq_true_eq, hwant]
      generalize (∃ i : ℕ, (i : ℤ) ≤ v ∧ ∃ l, L[i]? = some l ∧ k ∈ l) = Q
      tauto
    · rintro ⟨-, -, h⟩
      rw [if_pos]
      · exact ⟨_, rfl⟩
      · rw [List.all_eq_true]
        intro x hx
        rw [decide_eq_true_eq]
        have hstr : ∃ k, x = Key.str k := by
          rw [hw, List.mem_append] at hx
          rcases hx with hx | hx
          · obtain ⟨k, -, rfl⟩ := List.mem_map.mp (List.mem_filter.mp hx).1
            exact ⟨k, rfl⟩
          · split_ifs at hx
            · obtain ⟨k, -, rfl⟩ := List.mem_map.mp hx
              exact ⟨k, rfl⟩
            · simp at hx
        obtain ⟨k, rfl⟩ := hstr
        rw [hinj]
        rcases (hwant k).mp hx with ⟨h1, i, h2, l, h3, h4⟩ | ⟨-, h2, -⟩
        · exact h i h2 l h3 k h4 h1
        · exact h2
  · rw [if_pos (fun hh => hvv (hv.mp hh))]
    constructor
    · intro shown h; cases h
    · rintro ⟨h1, h2, -⟩
      exact absurd ⟨h1, h2⟩ hvv

/-- A check with three levels, and what is shown at each verbosity. -/
example : define base ⟨false, some "a", some "my_score", some (numbered [[], ["basic"], ["more"]])⟩ =
      .ok ⟨some "a", some "a_score", numbered [[], ["basic"], ["more"]]⟩ ∧
    shownKeys ⟨some "a", some "a_score", numbered [[], ["basic"], ["more"]]⟩ ["basic", "more", "rest", "statistics"] [] 0 = .ok [] ∧
    shownKeys ⟨some "a", some "a_score", numbered [[], ["basic"], ["more"]]⟩ ["basic", "more", "rest", "statistics"] [] 1 = .ok ["basic"] ∧
    shownKeys ⟨some "a", some "a_score", numbered [[], ["basic"], ["more"]]⟩ ["basic", "more", "rest", "statistics"] [] 3 =
      .ok ["basic", "more", "rest"] := by
  decide

end Cleanlab.Props
