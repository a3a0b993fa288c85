import Verif.Model.MultiannotatorFormat
import Verif.Props.DatalabData
import Mathlib.Data.Rat.Floor

/-!
# C99: preparing multi-annotator labels
-/

namespace Cleanlab.Props

open Np Cleanlab.DatalabData Cleanlab.MultiannotatorFormat

section Wide

variable {T A L : Type} [LinearOrder T] [LinearOrder A]

theorem cell_eq_some_iff (recs : List (Record T A L)) (hn : (recs.map (fun r => (r.task, r.annotator))).Nodup) (t : T) (a : A)
    (l : L) : cell recs t a = some l ↔ (⟨t, a, some l⟩ : Record T A L) ∈ recs := by
  unfold cell
  induction recs with
  | nil => simp
  | cons r rs ih =>
    rw [List.map_cons, List.nodup_cons] at hn
    rw [List.find?_cons]
    by_cases h : r.task = t ∧ r.annotator = a
    · rw [decide_eq_true h]
      obtain ⟨rt, ra, rl⟩ := r
      obtain ⟨rfl, rfl⟩ := h
      simp only [Option.bind_some, List.mem_cons]
      constructor
      · rintro rfl; exact Or.inl rfl
      · rintro (h | h)
        · cases h; rfl
        · exact absurd (List.mem_map.mpr ⟨_, h, rfl⟩) hn.1
    · rw [decide_eq_false h]
      simp only
      rw [ih hn.2, List.mem_cons]
      constructor
      · exact Or.inr
      · rintro (rfl | h')
        · exact absurd ⟨rfl, rfl⟩ h
        · exact h'

/-- **C99.** If no annotator labelled a task twice, the wide table has one row per task and one column per annotator, both in
ascending order, and its filled cells are exactly the recorded labels. -/
theorem C99_wide (recs : List (Record T A L)) (hn : (recs.map (fun r => (r.task, r.annotator))).Nodup) :
    ∃ w, longToWide recs = .ok w ∧
      w.tasks.Pairwise (· < ·) ∧ (∀ t, t ∈ w.tasks ↔ ∃ r ∈ recs, r.task = t) ∧
      w.annotators.Pairwise (· < ·) ∧ (∀ a, a ∈ w.annotators ↔ ∃ r ∈ recs, r.annotator = a) ∧
      w.rows.length = w.tasks.length ∧ (∀ row ∈ w.rows, row.length = w.annotators.length) ∧
      ∀ (i j : ℕ) t a, w.tasks[i]? = some t → w.annotators[j]? = some a →
        ∃ row c, w.rows[i]? = some row ∧ row[j]? = some c ∧
          ∀ l, c = some l ↔ (⟨t, a, some l⟩ : Record T A L) ∈ recs := by
  refine ⟨_, if_pos hn, sorted_unique _, ?_, sorted_unique _, ?_, List.length_map _, ?_, ?_⟩
  · intro t; rw [mem_unique, List.mem_map]
  · intro a; rw [mem_unique, List.mem_map]
  · intro row hrow
    obtain ⟨t, -, rfl⟩ := List.mem_map.mp hrow
    exact List.length_map _
  · intro i j t a ht ha
    refine ⟨(unique (recs.map Record.annotator)).map (cell recs t), cell recs t a, ?_, ?_, fun l => cell_eq_some_iff recs hn t a l⟩
    · rw [List.getElem?_map, ht]; rfl
    · rw [List.getElem?_map, ha]; rfl

/-- **C99.** Two records for the same task and annotator are refused. -/
theorem C99_duplicate (recs : List (Record T A L)) (i j : ℕ) (hij : i < j) (r s : Record T A L) (hi : recs[i]? = some r)
    (hj : recs[j]? = some s) (ht : r.task = s.task) (ha : r.annotator = s.annotator) : ∃ e, longToWide recs = .error e := by
  refine ⟨_, if_neg ?_⟩
  intro hn
  obtain ⟨hj', hje⟩ := List.getElem?_eq_some_iff.mp hj
  obtain ⟨hi', hie⟩ := List.getElem?_eq_some_iff.mp hi
  rw [List.nodup_iff_pairwise_ne, List.pairwise_iff_getElem] at hn
  have := hn i j (by simpa using hi') (by simpa using hj') hij
  simp only [List.getElem_map, hie, hje] at this
  exact this (by rw [ht, ha])

example : (longToWide [⟨20, 8, some 1⟩, ⟨10, 7, some 0⟩, ⟨20, 7, none⟩] : Except String (Wide ℕ ℕ ℕ)).toOption.map
    (fun w => (w.tasks, w.annotators, w.rows)) = some ([10, 20], [7, 8], [[some 0, none], [none, some 1]]) := by
  decide +kernel

end Wide

theorem mem_present {α : Type} (labels : List (List (Option α))) (a : α) :
    a ∈ present labels ↔ ∃ row ∈ labels, some a ∈ row := by
  unfold present
  simp only [List.mem_filterMap, List.mem_flatten, id]
  constructor
  · rintro ⟨o, ⟨row, hr, ho⟩, rfl⟩; exact ⟨row, hr, ho⟩
  · rintro ⟨row, hr, ho⟩; exact ⟨some a, ⟨row, hr, ho⟩, rfl⟩

/-- The entry `e` of the formatted table stands for the original entry `o`, according to the published map `m`. -/
def EntryOk {α β : Type} (m : List (ℕ × α)) : Option α → Entry β → Prop
  | none, e => e = .missing
  | some a, e => ∃ i, e = .code i ∧ m.lookup i = some a

/-- **C99.** Formatting labels that are not floats: the codes are `0, …, K-1` in the order of the classes, missing labels stay
missing, and every other entry is replaced by a code that the published map turns back into the original label. -/
theorem C99_format {α : Type} [LinearOrder α] (labels : List (List (Option α))) :
    IsLabelMap (present labels) (format labels).2 ∧
      List.Forall₂ (List.Forall₂ (EntryOk (β := α) (format labels).2)) labels (format labels).1 := by
  refine ⟨isLabelMap _, ?_⟩
  have hrow : ∀ row ∈ labels, List.Forall₂ (EntryOk (β := α) (inverseMap (labelMap (present labels)))) row
      (row.map (replaceEntry (fun a => (labelMap (present labels)).lookup a))) := by
    intro row hr
    rw [List.forall₂_map_right_iff, List.forall₂_same]
    intro o ho
    cases o with
    | none => rfl
    | some a =>
      have ha : a ∈ present labels := (mem_present labels a).mpr ⟨row, hr, ho⟩
      have hl : (labelMap (present labels)).lookup a = some ((unique (present labels)).idxOf a) := by
        unfold labelMap
        rw [lookup_zipIdx _ _ _ ((mem_unique _ a).mpr ha), Nat.zero_add]
      refine ⟨(unique (present labels)).idxOf a, ?_, lookup_inverse _ a ha⟩
      simp [replaceEntry, hl]
  show List.Forall₂ _ labels (labels.map _)
  rw [List.forall₂_map_right_iff, List.forall₂_same]
  exact hrow

example : format [[some (7 : ℤ), none], [some (-3), some 7]] =
    ([[.code 1, .missing], [.code 0, .code 1]], [(0, -3), (1, 7)]) := by decide +kernel

/-! ## Float labels -/

theorem lastIndex_nodup (keys : List ℤ) (hn : keys.Nodup) (i : ℕ) (k : ℤ) (hk : keys[i]? = some k) :
    lastIndex keys k = some i := by
  unfold lastIndex
  have hmem : (k, i) ∈ keys.zipIdx.reverse := by
    rw [List.mem_reverse, List.mem_zipIdx_iff_getElem?]
    exact hk
  cases hf : keys.zipIdx.reverse.find? (fun p => decide ((p.1 : ℚ) = k)) with
  | none =>
    rw [List.find?_eq_none] at hf
    exact absurd (decide_eq_true rfl) (hf _ hmem)
  | some p =>
    have h1 := List.find?_some hf
    have h2 := List.mem_of_find?_eq_some hf
    rw [List.mem_reverse, List.mem_zipIdx_iff_getElem?] at h2
    have h3 : p.1 = k := by exact_mod_cast of_decide_eq_true h1
    rw [h3] at h2
    obtain ⟨hlt, he⟩ := List.getElem?_eq_some_iff.mp h2
    obtain ⟨hlt', he'⟩ := List.getElem?_eq_some_iff.mp hk
    have := (hn.getElem_inj_iff (hi := hlt) (hj := hlt')).mp (he.trans he'.symm)
    simp [this]

theorem floatInverse_nodup (keys : List ℤ) (hn : keys.Nodup) : floatInverse keys = keys.zipIdx.map (fun p => (p.2, p.1)) := by
  unfold floatInverse
  rw [List.dedup_eq_self.mpr hn]
  have key : ∀ l : List ℤ, l = keys → l.filterMap (fun k : ℤ => (lastIndex keys (k : ℚ)).map (fun i => (i, k))) =
      keys.zipIdx.map (fun p => (p.2, p.1)) := by
    intro l hl
    rw [hl.trans (List.zipIdx_map_fst 0 keys).symm, List.filterMap_map, ← List.filterMap_eq_map]
    refine List.filterMap_congr ?_
    intro p hp
    rw [List.mem_zipIdx_iff_getElem?] at hp
    simp only [Function.comp_apply]
    rw [lastIndex_nodup keys hn p.2 p.1 hp]
    rfl
  exact key keys rfl

/-- **C99.** Float labels that are all integers (which integer labels become as soon as one is missing) are formatted like the
integers. Missing: other float labels (`C99_not_float`). -/
theorem C99_format_float_partial (labels : List (List (Option ℚ)))
    (hz : ∀ row ∈ labels, ∀ q, some q ∈ row → ∃ z : ℤ, q = z) :
    let m := (formatFloat labels).2.map (fun p => (p.1, (p.2 : ℚ)))
    IsLabelMap (present labels) m ∧ List.Forall₂ (List.Forall₂ (EntryOk (β := ℚ) m)) labels (formatFloat labels).1 := by
  intro m
  have hcast : ((unique (present labels)).map trunc).map (fun z : ℤ => (z : ℚ)) = unique (present labels) := by
    rw [List.map_map]
    conv_rhs => rw [← List.map_id (unique (present labels))]
    refine List.map_congr_left ?_
    intro q hq
    obtain ⟨row, hr, ho⟩ := (mem_present labels q).mp ((mem_unique _ q).mp hq)
    obtain ⟨z, rfl⟩ := hz row hr q ho
    simp [trunc]
  have hn : ((unique (present labels)).map trunc).Nodup := by
    refine List.Nodup.of_map (fun z : ℤ => (z : ℚ)) ?_
    rw [hcast]
    exact nodup_unique _
  have hm : m = inverseMap (labelMap (present labels)) := by
    show (floatInverse _).map _ = _
    rw [floatInverse_nodup _ hn, List.map_map]
    unfold inverseMap labelMap
    conv_rhs => rw [← hcast, List.zipIdx_map, List.map_map]
    rfl
  rw [hm]
  refine ⟨isLabelMap _, ?_⟩
  show List.Forall₂ _ labels (labels.map _)
  rw [List.forall₂_map_right_iff, List.forall₂_same]
  intro row hr
  rw [List.forall₂_map_right_iff, List.forall₂_same]
  intro o ho
  cases o with
  | none => rfl
  | some q =>
    have hq : q ∈ unique (present labels) := (mem_unique _ q).mpr ((mem_present labels q).mpr ⟨row, hr, ho⟩)
    refine ⟨(unique (present labels)).idxOf q, ?_, lookup_inverse _ q ((mem_unique _ q).mp hq)⟩
    have hlt := List.idxOf_lt_length_of_mem hq
    have hget : ((unique (present labels)).map trunc)[(unique (present labels)).idxOf q]? = some (trunc q) := by
      rw [List.getElem?_map, List.getElem?_eq_getElem hlt, List.getElem_idxOf]
      rfl
    have hl := lastIndex_nodup _ hn _ _ hget
    obtain ⟨z, rfl⟩ := hz row hr q ho
    rw [show trunc (z : ℚ) = z by simp [trunc]] at hl
    unfold replaceEntry
    dsimp only
    rw [hl]

/-- **C99 is violated.** Float labels that are not integers are left as they are, and the published map names a class that does
not occur; two classes with the same integer part share one name. -/
theorem C99_not_float :
    formatFloat [[some (1 / 2), some 2]] = ([[.unchanged (1 / 2), .code 1]], [(0, 0), (1, 2)]) ∧
      formatFloat [[some (1 / 4), some (1 / 2)]] = ([[.unchanged (1 / 4), .unchanged (1 / 2)]], [(1, 0)]) := by
  decide +kernel

example : formatFloat [[some 7, none], [some 3, some 7]] = ([[.code 1, .missing], [.code 0, .code 1]], [(0, 3), (1, 7)]) := by
  decide +kernel

end Cleanlab.Props
