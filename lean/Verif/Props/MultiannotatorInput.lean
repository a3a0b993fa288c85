import Verif.Model.MultiannotatorInput
import Verif.Props.Validation
import Verif.Lemmas.Multiannotator

/-!
# C129: the inputs of the multi-annotator functions
-/

namespace Cleanlab.Props

open Np Cleanlab.Validation Cleanlab.MultiannotatorInput

variable {n M K : ℕ}

/-- What the documentation asks of the table of labels; a single label per example is only allowed for active learning. -/
structure GoodLabels (allowSingle : Bool) (V : Table n M) : Prop where
  classes : ∀ i m q, V i m = some q → ∃ k : ℕ, q = k
  examples : 0 < n
  rows : ∀ i, ∃ m, V i m ≠ none
  columns : ∀ m, ∃ i, V i m ≠ none
  several : allowSingle = false → ∃ i m m', m ≠ m' ∧ V i m ≠ none ∧ V i m' ≠ none

/-- What the documentation asks of the shape of the predicted probabilities. -/
def GoodShape (ensemble : Bool) (V : Table n M) : Probs → Prop
  | .none => True
  | .notArray => False
  | .array shape _ => ∃ k : ℕ, (∀ i m q, V i m = some q → q < k) ∧
      (if ensemble = true then ∃ p, shape = [p, n, k] else shape = [n, k])

theorem one_lt_given_iff (V : Table n M) (i : Fin n) :
    1 < given V i ↔ ∃ m m', m ≠ m' ∧ V i m ≠ none ∧ V i m' ≠ none := by
  unfold given
  rw [countP_finRange, Finset.one_lt_card_iff]
  simp only [Finset.mem_filter, Finset.mem_univ, true_and, Option.isSome_iff_ne_none]
  exact ⟨fun ⟨a, b, h1, h2, h3⟩ => ⟨a, b, h3, h1, h2⟩, fun ⟨a, b, h3, h1, h2⟩ => ⟨a, b, h1, h2, h3⟩⟩

theorem given_pos_iff (V : Table n M) (i : Fin n) : 0 < given V i ↔ ∃ m, V i m ≠ none := by
  unfold given
  rw [List.countP_pos_iff]
  simp [Option.isSome_iff_ne_none]

theorem mem_flat (V : Table n M) (r : Raw) : r ∈ flat V ↔ ∃ i m q, V i m = some q ∧ r = .num q := by
  unfold flat
  simp only [List.mem_map, List.mem_flatMap, List.mem_filterMap, List.mem_finRange, true_and]
  constructor
  · rintro ⟨q, ⟨i, m, h⟩, rfl⟩; exact ⟨i, m, q, h, rfl⟩
  · rintro ⟨i, m, q, h, rfl⟩; exact ⟨q, ⟨i, m, h⟩, rfl⟩

/-- The labels that occur, as the class check returns them. -/
theorem classLabels_iff (V : Table n M) (z : List ℕ) :
    validClassLabels true true (flat V) = .ok z ↔ AreClasses (flat V) z ∧ z ≠ [] := by
  rw [C96_labels]
  simp

theorem exists_classes {y : List Raw} (h : ∀ r ∈ y, ∃ k : ℕ, r = .num k) : ∃ z, AreClasses y z := by
  induction y with
  | nil => exact ⟨[], rfl⟩
  | cons r y ih =>
    obtain ⟨k, hk⟩ := h r (by simp)
    obtain ⟨z, hz⟩ := ih (fun r' hr => h r' (by simp [hr]))
    refine ⟨k :: z, ?_⟩
    unfold AreClasses at hz ⊢
    rw [List.map_cons, ← hz, hk]

theorem mem_of_areClasses {V : Table n M} {z : List ℕ} (h : AreClasses (flat V) z) (k : ℕ) :
    k ∈ z ↔ ∃ i m, V i m = some (k : ℚ) := by
  have hm : k ∈ z ↔ Raw.num k ∈ flat V := by
    rw [h]
    simp
  rw [hm, mem_flat]
  constructor
  · rintro ⟨i, m, q, h, e⟩
    rw [Raw.num.injEq] at e
    exact ⟨i, m, e ▸ h⟩
  · rintro ⟨i, m, h⟩; exact ⟨i, m, k, h, rfl⟩

theorem checkProbs_iff (ensemble : Bool) (V : Table n M) (z : List ℕ) (h : AreClasses (flat V) z) (P : Probs) :
    checkProbs n ensemble z P = .ok () ↔ GoodShape ensemble V P := by
  have hlt : ∀ k : ℕ, (z.any (fun a => decide (k ≤ a)) = false) ↔ ∀ i m q, V i m = some q → q < (k : ℚ) := by
    intro k
    rw [List.any_eq_false]
    constructor
    · intro hz i m q hq
      have : Raw.num q ∈ flat V := (mem_flat V _).mpr ⟨i, m, q, hq, rfl⟩
      rw [h] at this
      obtain ⟨a, ha, e⟩ := List.mem_map.mp this
      rw [Raw.num.injEq] at e
      have := hz a ha
      rw [← e]
      simpa using this
    · intro hV a ha
      obtain ⟨i, m, hi⟩ := (mem_of_areClasses h a).mp ha
      have := hV i m a hi
      simpa using this
  cases P with
  | none => exact ⟨fun _ => trivial, fun _ => rfl⟩
  | notArray => exact ⟨fun h => by (cases h), fun h => False.elim h⟩
  | array shape values =>
    unfold checkProbs GoodShape
    cases ensemble with
    | true =>
      simp only [if_true]
      constructor
      · intro hc
        split at hc
        · rename_i p l k
          split at hc
          · cases hc
          · rename_i hl
            split at hc
            · cases hc
            · rename_i hk
              push Not at hl
              exact ⟨k, (hlt k).mp (by simpa using hk), p, by rw [hl]⟩
        · cases hc
      · rintro ⟨k, hk, p, rfl⟩
        simp only [ne_eq, not_true_eq_false, if_false, (hlt k).mpr hk]
        rfl
    | false =>
      simp only [Bool.false_eq_true, if_false]
      constructor
      · intro hc
        split at hc
        · rename_i l k
          split at hc
          · cases hc
          · rename_i hl
            split at hc
            · cases hc
            · rename_i hk
              push Not at hl
              exact ⟨k, (hlt k).mp (by simpa using hk), by rw [hl]⟩
        · cases hc
      · rintro ⟨k, hk, rfl⟩
        simp only [ne_eq, not_true_eq_false, if_false, (hlt k).mpr hk]
        rfl

theorem hasAgreement_iff (V : Table n M) :
    hasAgreement V = true ↔ ∃ i m m', m ≠ m' ∧ V i m ≠ none ∧ V i m = V i m' := by
  unfold hasAgreement
  rw [decide_eq_true_iff]
  constructor
  · rintro ⟨i, a, ha, hc⟩
    rw [countP_finRange, Finset.one_lt_card_iff] at hc
    obtain ⟨m, m', h1, h2, hne⟩ := hc
    simp only [Finset.mem_filter, Finset.mem_univ, true_and, beq_iff_eq] at h1 h2
    exact ⟨i, m, m', hne, by rw [h1]; simp, by rw [h1, h2]⟩
  · rintro ⟨i, m, m', hne, hs, he⟩
    obtain ⟨a, ha⟩ := Option.ne_none_iff_exists'.mp hs
    refine ⟨i, a, List.mem_filterMap.mpr ⟨m, List.mem_finRange _, ha⟩, ?_⟩
    rw [countP_finRange, Finset.one_lt_card_iff]
    refine ⟨m, m', ?_, ?_, hne⟩
    · simp [ha]
    · simp [← he, ha]

/-- **C129, partial.** The checks pass exactly if every label is missing or a class index, every example and every
annotator has a label, some example has two of them (unless single labels are allowed), and the predicted probabilities
are an array of the right dimension with a row for every example and a column for every class that occurs; the warning
is given exactly if no two annotators agree on an example.  What is missing: nothing is asked of the probabilities
themselves. -/
theorem C129_check_partial (ensemble allowSingle : Bool) (V : Table n M) (P : Probs) (w : Bool) :
    assertValid ensemble allowSingle V P = .ok w ↔
      GoodLabels allowSingle V ∧ GoodShape ensemble V P ∧
        (w = true ↔ allowSingle = false ∧ ∀ i m m', m ≠ m' → V i m ≠ none → V i m ≠ V i m') := by
  unfold assertValid
  by_cases h1 : ∃ i, ∀ m, V i m = none
  · rw [if_pos h1]
    refine ⟨fun h => by (cases h), fun ⟨h, _⟩ => ?_⟩
    obtain ⟨i, hi⟩ := h1
    obtain ⟨m, hm⟩ := h.rows i
    exact absurd (hi m) hm
  rw [if_neg h1]
  by_cases h2 : ∃ m, ∀ i, V i m = none
  · rw [if_pos h2]
    refine ⟨fun h => by (cases h), fun ⟨h, _⟩ => ?_⟩
    obtain ⟨m, hm⟩ := h2
    obtain ⟨i, hi⟩ := h.columns m
    exact absurd (hm i) hi
  rw [if_neg h2]
  by_cases h3 : allowSingle = false ∧ M ≤ 1
  · rw [if_pos h3]
    refine ⟨fun h => by (cases h), fun ⟨h, _⟩ => ?_⟩
    obtain ⟨i, m, m', hne, -⟩ := h.several h3.1
    exact absurd (Fin.ext (by have := m.isLt; have := m'.isLt; omega)) hne
  rw [if_neg h3]
  push Not at h1 h2
  by_cases h4 : allowSingle = false ∧ ∀ i, given V i = 1
  · rw [if_pos h4]
    refine ⟨fun h => by (cases h), fun ⟨h, _⟩ => ?_⟩
    obtain ⟨i, hi⟩ := h.several h4.1
    have := (one_lt_given_iff V i).mpr hi
    rw [h4.2 i] at this
    omega
  rw [if_neg h4]
  have hsev : allowSingle = false → ∃ i m m', m ≠ m' ∧ V i m ≠ none ∧ V i m' ≠ none := by
    intro ha
    have : ¬∀ i, given V i = 1 := fun hg => h4 ⟨ha, hg⟩
    push Not at this
    obtain ⟨i, hi⟩ := this
    have hp := (given_pos_iff V i).mpr (h1 i)
    exact ⟨i, (one_lt_given_iff V i).mp (by omega)⟩
  have hwarn : ∀ w : Bool, ((!allowSingle && !hasAgreement V) = w ↔
      (w = true ↔ allowSingle = false ∧ ∀ i m m', m ≠ m' → V i m ≠ none → V i m ≠ V i m')) := by
    intro w
    have : (!allowSingle && !hasAgreement V) = true ↔
        allowSingle = false ∧ ∀ i m m', m ≠ m' → V i m ≠ none → V i m ≠ V i m' := by
      rw [Bool.and_eq_true, Bool.not_eq_true', Bool.not_eq_true', ← Bool.not_eq_true, ← Bool.not_eq_true, hasAgreement_iff]
      push Not
      rfl
    rw [← this, Bool.eq_iff_iff]
    exact ⟨fun h => h.symm, fun h => h.symm⟩
  cases hz : validClassLabels true true (flat V) with
  | error e =>
    refine ⟨fun h => by (cases h), fun ⟨h, _⟩ => ?_⟩
    obtain ⟨z, hz'⟩ : ∃ z, AreClasses (flat V) z := by
      apply exists_classes
      intro r hr
      obtain ⟨i, m, q, hq, rfl⟩ := (mem_flat V r).mp hr
      obtain ⟨k, hk⟩ := h.classes i m q hq
      exact ⟨k, by rw [hk]⟩
    have hne : z ≠ [] := by
      rintro rfl
      obtain ⟨m, hm⟩ := h.rows ⟨0, h.examples⟩
      obtain ⟨q, hq⟩ := Option.ne_none_iff_exists'.mp hm
      have : Raw.num q ∈ flat V := (mem_flat V _).mpr ⟨_, m, q, hq, rfl⟩
      rw [hz'] at this
      simp at this
    rw [(classLabels_iff V z).mpr ⟨hz', hne⟩] at hz
    cases hz
  | ok z =>
    obtain ⟨hcl, hne⟩ := (classLabels_iff V z).mp hz
    have hgood : GoodLabels allowSingle V := by
      refine ⟨?_, ?_, h1, h2, hsev⟩
      · intro i m q hq
        have : Raw.num q ∈ flat V := (mem_flat V _).mpr ⟨i, m, q, hq, rfl⟩
        rw [hcl] at this
        obtain ⟨a, -, e⟩ := List.mem_map.mp this
        rw [Raw.num.injEq] at e
        exact ⟨a, e.symm⟩
      · obtain ⟨a, ha⟩ := List.exists_mem_of_ne_nil z hne
        obtain ⟨i, -⟩ := (mem_of_areClasses hcl a).mp ha
        exact i.pos
    have hs := checkProbs_iff ensemble V z hcl P
    cases hp : checkProbs n ensemble z P with
    | error e =>
      refine ⟨fun h => ?_, fun ⟨_, h, _⟩ => ?_⟩
      · simp only [bind, Except.bind, hp] at h
        cases h
      · rw [hs.mpr h] at hp
        cases hp
    | ok u =>
      have : (do
          let labels ← (Except.ok z : Except String (List ℕ))
          checkProbs n ensemble labels P
          return (!allowSingle && !hasAgreement V) : Except String Bool) = .ok (!allowSingle && !hasAgreement V) := by
        simp only [bind, Except.bind, hp]
        rfl
      rw [this, Except.ok.injEq, hwarn]
      exact ⟨fun h => ⟨hgood, hs.mp (by rw [hp]), h⟩, fun ⟨_, _, h⟩ => h⟩

/-! ### The table of labels -/

/-- **C129, partial.** From a data frame: numbers are kept, `NaN`, `pd.NA` and `None` are missing labels, and a text is
the number it is written for; everything else raises.  What is missing: texts should be refused. -/
theorem C129_frame_partial (parse : String → Option (Option ℚ)) (cells : Fin n → Fin M → Cell) (V : Table n M) :
    table parse (.frame cells) = .ok V ↔ ∀ i m,
      (∀ q, cells i m = .num q → V i m = some q) ∧ (cells i m = .nan ∨ cells i m = .missing → V i m = none) ∧
        ∀ s, cells i m = .text s → parse s = some (V i m) := by
  unfold table
  rw [collect_ok_iff]
  simp only [collect_ok_iff]
  refine forall_congr' (fun i => forall_congr' (fun m => ?_))
  cases cells i m with
  | num q => simp [toFloat, eq_comm]
  | nan => simp [toFloat, eq_comm]
  | missing => simp [toFloat, eq_comm]
  | text s => cases hp : parse s <;> simp [toFloat, hp]

/-- **C129.** From an array: exactly the numeric arrays of dimension 2 are accepted, with their values; texts and arrays
of objects raise. -/
theorem C129_array (parse : String → Option (Option ℚ)) (object : Bool) (cells : Fin n → Fin M → Cell) (V : Table n M) :
    table parse (.array object cells) = .ok V ↔ object = false ∧ ∀ i m,
      cells i m = match V i m with
        | some q => .num q
        | none => .nan := by
  unfold table
  dsimp only
  by_cases ht : ∃ i m, (cells i m).isText
  · rw [if_pos ht]
    refine ⟨fun h => by (cases h), fun ⟨_, h⟩ => ?_⟩
    obtain ⟨i, m, ht⟩ := ht
    rw [h i m] at ht
    cases hv : V i m <;> simp [hv, Cell.isText] at ht
  · rw [if_neg ht]
    cases object with
    | true => exact ⟨fun h => by (cases h), fun ⟨h, _⟩ => by (cases h)⟩
    | false =>
      simp only [Bool.false_eq_true, if_false, true_and]
      rw [collect_ok_iff]
      simp only [collect_ok_iff]
      refine forall_congr' (fun i => forall_congr' (fun m => ?_))
      cases cells i m with
      | num q => cases hv : V i m <;> simp [asNumber]
      | nan => cases hv : V i m <;> simp [asNumber]
      | missing => cases hv : V i m <;> simp [asNumber]
      | text s => cases hv : V i m <;> simp [asNumber]

/-- **C129.** Anything else is refused. -/
theorem C129_other (parse : String → Option (Option ℚ)) (ensemble : Bool) (P : Probs) :
    (∀ r, input parse ensemble (.otherDim : Labels n M) P ≠ .ok r) ∧
      ∀ r, input parse ensemble (.other : Labels n M) P ≠ .ok r :=
  ⟨fun _ h => by (cases h), fun _ h => by (cases h)⟩

/-- **C129, partial.** The start of `get_label_quality_multiannotator` succeeds exactly if the labels form a table that passes
the checks with several labels required for some example. -/
theorem C129_input_partial (parse : String → Option (Option ℚ)) (ensemble : Bool) (labels : Labels n M) (P : Probs)
    (V : Table n M) (w : Bool) :
    input parse ensemble labels P = .ok (V, w) ↔ table parse labels = .ok V ∧
      GoodLabels false V ∧ GoodShape ensemble V P ∧
        (w = true ↔ ∀ i m m', m ≠ m' → V i m ≠ none → V i m ≠ V i m') := by
  have hc := C129_check_partial ensemble false V P w
  simp only [true_and] at hc
  rw [← hc]
  unfold input
  cases ht : table parse labels with
  | error e =>
    dsimp only [bind, Except.bind]
    simp
  | ok V' =>
    dsimp only [bind, Except.bind]
    cases hw : assertValid ensemble false V' P with
    | error e =>
      dsimp only
      refine ⟨fun h => by (cases h), fun ⟨h1, h2⟩ => ?_⟩
      rw [Except.ok.inj h1, h2] at hw
      cases hw
    | ok w' =>
      dsimp only [pure, Except.pure]
      constructor
      · intro h
        obtain ⟨rfl, rfl⟩ := Prod.mk.inj (Except.ok.inj h)
        exact ⟨rfl, hw⟩
      · rintro ⟨h1, h2⟩
        obtain rfl := Except.ok.inj h1
        rw [hw] at h2
        rw [Except.ok.inj h2]

/-- The number written by a text of one digit. -/
def oneDigit (s : String) : Option (Option ℚ) := if s = "1" then some (some 1) else if s = "nan" then some none else none

/-- **C129, refuted.** "Labels cannot be strings": texts are refused in an array but accepted, as numbers, in a data
frame. -/
theorem C129_not_strings :
    ∃ cells : Fin 2 → Fin 2 → Cell, (∃ i m, (cells i m).isText) ∧
      (∃ r, input oneDigit false (.frame cells) .none = .ok r) ∧
      ∀ object r, input oneDigit false (.array object cells) .none ≠ .ok r := by
  refine ⟨fun _ _ => .text "1", ⟨0, 0, rfl⟩, ?_, ?_⟩
  · have ht : table oneDigit (.frame (fun _ _ => .text "1") : Labels 2 2) = .ok (fun _ _ => some 1) := by
      rw [C129_frame_partial]
      simp [oneDigit]
    refine ⟨(fun _ _ => some 1, false), ?_⟩
    unfold input
    rw [ht]
    have : assertValid false false (fun _ _ => some 1 : Table 2 2) .none = .ok false := by
      rw [C129_check_partial]
      refine ⟨⟨?_, by decide, fun _ => ⟨0, by simp⟩, fun _ => ⟨0, by simp⟩, fun _ => ⟨0, 0, 1, by decide, by simp, by simp⟩⟩,
        trivial, ?_⟩
      · intro i m q hq
        exact ⟨1, by simpa using hq.symm⟩
      · simp only [Bool.false_eq_true, false_iff, not_and]
        intro _ h
        exact h 0 0 1 (by decide) (by simp) rfl
    simp only [bind, Except.bind, this]
    rfl
  · intro object r h
    unfold input at h
    cases ht : table oneDigit (.array object (fun _ _ => .text "1") : Labels 2 2) with
    | error e => rw [ht] at h; cases h
    | ok V =>
      obtain ⟨-, hV⟩ := (C129_array _ _ _ _).mp ht
      have := hV 0 0
      cases hv : V 0 0 <;> simp [hv] at this

/-- **C129, refuted.** The values of the predicted probabilities are not looked at: whatever is accepted is accepted with
any other values, for instance negative ones that do not add up to 1. -/
theorem C129_not_probabilities (parse : String → Option (Option ℚ)) (ensemble : Bool) (labels : Labels n M)
    (shape : List ℕ) (values values' : List ℚ) :
    input parse ensemble labels (.array shape values) = input parse ensemble labels (.array shape values') := by
  rfl

/-! ### The table and the model -/

/-- The numbers that stand for a table of classes. -/
def numbers (L : Multiannotator.Annotations n M K) : Table n M := fun i m => (L i m).map (fun k => ((k.val : ℕ) : ℚ))

theorem given_numbers (L : Multiannotator.Annotations n M K) (i : Fin n) :
    given (numbers L) i = Multiannotator.numAnnotations L i := by
  unfold given numbers Multiannotator.numAnnotations
  simp

/-- **C129.** What is accepted together with predicted probabilities for `K` classes are the tables with entries in
`0, …, K - 1` on which the checks of the typed model pass. -/
theorem C129_model (V : Table n M) (K : ℕ) (values : List ℚ) :
    (∃ w, assertValid false false V (.array [n, K] values) = .ok w) ↔
      0 < n ∧ ∃ L : Multiannotator.Annotations n M K, V = numbers L ∧ Multiannotator.assertValidInputs L = .ok () := by
  constructor
  · rintro ⟨w, hw⟩
    obtain ⟨hg, ⟨k, hk, hs⟩, -⟩ := (C129_check_partial _ _ _ _ _).mp hw
    simp only [Bool.false_eq_true, if_false, List.cons.injEq, and_true, true_and] at hs
    subst hs
    have hL : ∀ i m, ∃ c : Option (Fin K), V i m = c.map (fun k => ((k.val : ℕ) : ℚ)) := by
      intro i m
      cases hv : V i m with
      | none => exact ⟨none, rfl⟩
      | some q =>
        obtain ⟨a, rfl⟩ := hg.classes i m q hv
        have : a < K := by exact_mod_cast hk i m _ hv
        exact ⟨some ⟨a, this⟩, rfl⟩
    choose L hL using hL
    have hV : V = numbers L := funext (fun i => funext (fun m => hL i m))
    refine ⟨hg.examples, L, hV, ?_⟩
    have hnone : ∀ i m, V i m = none ↔ L i m = none := fun i m => by rw [hL i m]; simp
    unfold Multiannotator.assertValidInputs
    rw [if_neg, if_neg, if_neg, if_neg]
    · intro h
      obtain ⟨i, hi⟩ := hg.several rfl
      have := (one_lt_given_iff V i).mpr hi
      rw [hV, given_numbers, h i] at this
      omega
    · obtain ⟨i, m, m', hne, -⟩ := hg.several rfl
      intro hM
      exact hne (Fin.ext (by have := m.isLt; have := m'.isLt; omega))
    · rintro ⟨m, hm⟩
      obtain ⟨i, hi⟩ := hg.columns m
      exact hi ((hnone i m).mpr (hm i))
    · rintro ⟨i, hi⟩
      obtain ⟨m, hm⟩ := hg.rows i
      exact hm ((hnone i m).mpr (hi m))
  · rintro ⟨hn, L, rfl, hL⟩
    have hnone : ∀ i m, numbers L i m = none ↔ L i m = none := fun i m => by simp [numbers]
    unfold Multiannotator.assertValidInputs at hL
    by_cases h1 : ∃ i, ∀ m, L i m = none
    · rw [if_pos h1] at hL; cases hL
    rw [if_neg h1] at hL
    by_cases h2 : ∃ m, ∀ i, L i m = none
    · rw [if_pos h2] at hL; cases hL
    rw [if_neg h2] at hL
    by_cases h3 : M ≤ 1
    · rw [if_pos h3] at hL; cases hL
    rw [if_neg h3] at hL
    by_cases h4 : ∀ i, Multiannotator.numAnnotations L i = 1
    · rw [if_pos h4] at hL; cases hL
    push Not at h1 h2 h4
    have hrows : ∀ i, ∃ m, numbers L i m ≠ none := fun i => (h1 i).imp (fun m hm => fun h => hm ((hnone i m).mp h))
    refine ⟨!hasAgreement (numbers L), (C129_check_partial _ _ _ _ _).mpr ⟨⟨?_, hn, hrows, ?_, ?_⟩, ?_, ?_⟩⟩
    · intro i m q hq
      cases hc : L i m with
      | none => simp [numbers, hc] at hq
      | some k => exact ⟨k.val, by simpa [numbers, hc] using hq.symm⟩
    · exact fun m => (h2 m).imp (fun i hm => fun h => hm ((hnone i m).mp h))
    · intro _
      obtain ⟨i, hi⟩ := h4
      have hp := (given_pos_iff _ i).mpr (hrows i)
      rw [given_numbers] at hp
      exact ⟨i, (one_lt_given_iff _ i).mp (by rw [given_numbers]; omega)⟩
    · refine ⟨K, ?_, by simp⟩
      intro i m q hq
      cases hc : L i m with
      | none => simp [numbers, hc] at hq
      | some k =>
        have : q = ((k.val : ℕ) : ℚ) := by simpa [numbers, hc] using hq.symm
        rw [this]
        exact_mod_cast k.isLt
    · simp only [true_and]
      rw [Bool.not_eq_true', ← Bool.not_eq_true, hasAgreement_iff]
      push Not
      rfl

/-! ### Counting the labels -/

theorem position_nat (k : Fin K) : position K ((k.val : ℕ) : ℚ) = .ok k := by
  have ht : trunc ((k.val : ℕ) : ℚ) = k.val := by
    unfold trunc
    rw [if_pos (by exact_mod_cast Nat.zero_le _)]
    simp
  unfold position
  rw [dif_pos (by rw [ht]; exact ⟨by omega, by have := k.isLt; omega⟩)]
  congr 1
  exact Fin.ext (by simp [ht])

theorem positions_numbers (L : Multiannotator.Annotations n M K) : positions K (numbers L) = .ok L := by
  unfold positions
  rw [collect_ok_iff]
  simp only [collect_ok_iff]
  intro i m
  cases hc : L i m with
  | none => simp [numbers, hc]
  | some k => simp [numbers, hc, position_nat, Except.map]

/-- **C129, partial.** The majority vote counts the labels: for every accepted table the count of a class is the number of
annotators that chose it.  What is missing: with `verbose=False` the table is not checked. -/
theorem C129_counts_partial (V : Table n M) (K : ℕ) (values : List ℚ) (c : Fin n → Fin K → ℕ)
    (h : labelCounts true V K values = .ok c) (i : Fin n) (k : Fin K) :
    c i k = (Finset.univ.filter (fun m => V i m = some ((k.val : ℕ) : ℚ))).card := by
  unfold labelCounts at h
  simp only [if_true] at h
  cases hw : assertValid false false V (.array [n, K] values) with
  | error e => rw [hw] at h; cases h
  | ok w =>
    obtain ⟨-, L, rfl, -⟩ := (C129_model V K values).mp ⟨w, hw⟩
    rw [hw] at h
    simp only [bind, Except.bind, positions_numbers, pure, Except.pure, Except.ok.injEq] at h
    rw [← h]
    dsimp only
    rw [countP_finRange]
    congr 1
    ext m
    simp only [Finset.mem_filter, Finset.mem_univ, true_and, beq_iff_eq]
    cases hc : L i m with
    | none => simp [numbers, hc]
    | some a =>
      simp only [numbers, hc, Option.map_some, Option.some.injEq]
      constructor
      · rintro rfl; rfl
      · intro e
        exact Fin.ext (by exact_mod_cast e)

/-- **C129.** On tables of classes `verbose` makes no difference. -/
theorem C129_verbose (L : Multiannotator.Annotations n M K) (values : List ℚ) :
    labelCounts false (numbers L) K values = .ok (Multiannotator.labelCount L) := by
  unfold labelCounts
  simp only [Bool.false_eq_true, if_false, bind, Except.bind, positions_numbers, pure, Except.pure]
  rfl

/-- **C129, refuted.** With `verbose=False` the majority vote counts the label -1 as the last class and 1/2 as class 0,
whereas it raises with `verbose=True`. -/
theorem C129_not_verbose :
    ∃ V : Table 1 2, (∀ c, labelCounts true V 3 [] ≠ .ok c) ∧
      ∃ c, labelCounts false V 3 [] = .ok c ∧ c 0 2 = 1 ∧ c 0 0 = 1 := by
  have hp1 : position 3 (-1) = .ok 2 := by decide +kernel
  have hp2 : position 3 (1 / 2) = .ok 0 := by decide +kernel
  refine ⟨fun _ m => if m = 0 then some (-1) else some (1 / 2), ?_, fun _ k => if k = 1 then 0 else 1, ?_, rfl, rfl⟩
  · intro c h
    unfold labelCounts at h
    simp only [if_true] at h
    cases hw : assertValid false false (fun _ m => if m = 0 then some (-1) else some (1 / 2) : Table 1 2)
        (.array [1, 3] []) with
    | error e => rw [hw] at h; cases h
    | ok w =>
      obtain ⟨hg, -⟩ := (C129_check_partial _ _ _ _ _).mp hw
      obtain ⟨k, hk⟩ := hg.classes 0 0 (-1) rfl
      have : (0 : ℚ) ≤ k := by exact_mod_cast Nat.zero_le _
      rw [← hk] at this
      norm_num at this
  · have hp : positions 3 (fun _ m => if m = 0 then some (-1) else some (1 / 2) : Table 1 2) =
        .ok (fun _ m => if m = 0 then some 2 else some 0) := by
      unfold positions
      rw [collect_ok_iff]
      simp only [collect_ok_iff]
      intro i m
      fin_cases m
      · show (position 3 (-1)).map some = _
        rw [hp1]
        rfl
      · show (position 3 (1 / 2)).map some = _
        rw [hp2]
        rfl
    unfold labelCounts
    simp only [Bool.false_eq_true, if_false, bind, Except.bind, hp, pure, Except.pure]
    congr 1
    funext i k
    fin_cases k <;> rfl

/-! ### Active learning and omitted classes -/

/-- **C129, partial.** The check of the two arrays of predicted probabilities passes exactly if one of them is given, those
that are given are arrays of the right dimension, and both have the same number of classes. -/
theorem C129_pred_probs_partial (ensemble : Bool) (P U : Probs) :
    assertValidPredProbs ensemble P U = .ok () ↔
      ¬(P = .none ∧ U = .none) ∧
      (∀ Q, Q = P ∨ Q = U → Q = .none ∨ ∃ shape values, Q = .array shape values ∧
        shape.length = (if ensemble then 3 else 2)) ∧
      ∀ s v s' v', P = .array s v → U = .array s' v' → s.getLast? = s'.getLast? := by
  unfold assertValidPredProbs
  have hdim : ∀ Q : Probs, checkDim ensemble Q = .ok () ↔ Q = .none ∨ ∃ shape values, Q = .array shape values ∧
      shape.length = (if ensemble then 3 else 2) := by
    intro Q
    cases Q with
    | none => simp [checkDim]
    | notArray => simp [checkDim]
    | array s v =>
      unfold checkDim
      by_cases h : s.length = (if ensemble then 3 else 2) <;> simp [h]
  have hall : (∀ Q, Q = P ∨ Q = U → Q = .none ∨ ∃ shape values, Q = .array shape values ∧
        shape.length = (if ensemble then 3 else 2)) ↔ checkDim ensemble P = .ok () ∧ checkDim ensemble U = .ok () := by
    rw [hdim, hdim]
    exact ⟨fun h => ⟨h P (.inl rfl), h U (.inr rfl)⟩, fun ⟨h, h'⟩ Q hQ => by rcases hQ with rfl | rfl <;> assumption⟩
  rw [hall]
  cases hP : checkDim ensemble P with
  | error e =>
    refine ⟨fun h => ?_, fun ⟨_, h, _⟩ => by (cases h.1)⟩
    cases hn : (P.isNone && U.isNone) <;> simp [hn, hP, bind, Except.bind] at h
    all_goals cases h
  | ok u =>
    cases hU : checkDim ensemble U with
    | error e =>
      refine ⟨fun h => ?_, fun ⟨_, h, _⟩ => by (cases h.2)⟩
      cases hn : (P.isNone && U.isNone) <;> simp [hn, hP, hU, bind, Except.bind] at h
      all_goals cases h
    | ok u' =>
      cases P with
      | notArray => cases hP
      | none =>
        cases U with
        | none => simp [Probs.isNone, bind, Except.bind, throw, throwThe, MonadExceptOf.throw]
        | notArray => cases hU
        | array s' v' => simp [Probs.isNone, bind, Except.bind, pure, Except.pure]
      | array s v =>
        cases U with
        | notArray => cases hU
        | none => simp [Probs.isNone, bind, Except.bind, pure, Except.pure]
        | array s' v' =>
          by_cases hs : s.getLast? = s'.getLast?
          · simp [Probs.isNone, bind, Except.bind, pure, Except.pure, classes, hs]
            rintro _ _ _ _ rfl rfl rfl rfl
            exact hs
          · simp [Probs.isNone, bind, Except.bind, pure, Except.pure, classes, hs, throw, throwThe, MonadExceptOf.throw]

/-- **C129.** The note about omitted classes lists, without repetition, exactly the labels that some annotator gave and
that are no consensus label. -/
theorem C129_omitted (V : Table n M) (consensus : Fin n → ℕ) (a : ℚ) :
    (omitted V consensus).Nodup ∧
      (a ∈ omitted V consensus ↔ (∃ i m, V i m = some a) ∧ ∀ i, a ≠ (consensus i : ℚ)) := by
  unfold omitted
  refine ⟨(List.nodup_dedup _).filter _, ?_⟩
  rw [List.mem_filter, List.mem_dedup, decide_eq_true_iff]
  simp

/-- A table with two annotators, one of whom skips an example. -/
def smallTable : Fin 2 → Fin 2 → Cell := ![![.num 0, .num 0], ![.num 1, .nan]]

/-- It is accepted with probabilities for two classes but not for one class or with three rows. -/
example : (input oneDigit false (.array false smallTable) (.array [2, 2] [])).toBool = true ∧
    (input oneDigit false (.array false smallTable) (.array [2, 1] [])).toBool = false ∧
    (input oneDigit false (.array false smallTable) (.array [3, 2] [])).toBool = false ∧
    (input oneDigit true (.array false smallTable) (.array [5, 2, 2] [])).toBool = true := by
  decide +kernel

/-- A label 1/2, a negative label, an annotator without labels, only one label per example: refused. -/
example :
    (input oneDigit false (.array false ![![.num 0, .num (1 / 2)], ![.num 1, .nan]]) .none).toBool = false ∧
    (input oneDigit false (.array false ![![.num 0, .num (-1)], ![.num 1, .nan]]) .none).toBool = false ∧
    (input oneDigit false (.array false ![![.num 0, .nan], ![.num 1, .nan]]) .none).toBool = false ∧
    (input oneDigit false (.array false ![![.num 0, .nan], ![.nan, .num 1]]) .none).toBool = false := by
  decide +kernel

end Cleanlab.Props
