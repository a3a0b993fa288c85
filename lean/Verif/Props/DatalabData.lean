import Verif.Model.DatalabData
import Verif.Props.Token

/-!
# C53: Datalab label encoding
-/

namespace Cleanlab.Props

open Cleanlab.DatalabData

variable {α : Type} [LinearOrder α]

theorem mem_unique (l : List α) (a : α) : a ∈ unique l ↔ a ∈ l := by
  unfold unique
  rw [List.mem_insertionSort, List.mem_dedup]

theorem nodup_unique (l : List α) : (unique l).Nodup :=
  (List.perm_insertionSort _ _).nodup_iff.mpr (List.nodup_dedup l)

theorem sorted_unique (l : List α) : (unique l).Pairwise (· < ·) :=
  List.Pairwise.imp₂ (fun _ _ h1 h2 => lt_of_le_of_ne h1 h2) (List.pairwise_insertionSort (· ≤ ·) _) (nodup_unique l)

theorem lookup_zipIdx {β : Type} [DecidableEq β] : ∀ (u : List β) (k : ℕ) (x : β), x ∈ u →
    (u.zipIdx k).lookup x = some (k + u.idxOf x) := by
  intro u
  induction u with
  | nil => intro k x h; cases h
  | cons a u ih =>
    intro k x h
    rw [List.zipIdx_cons, List.lookup_cons]
    by_cases hx : x = a
    · subst hx
      simp [List.idxOf_cons_self]
    · have hm : x ∈ u := by
        rcases List.mem_cons.mp h with h | h
        · exact absurd h hx
        · exact h
      have : (x == a) = false := by simpa using hx
      rw [this]
      dsimp only
      rw [ih (k + 1) x hm, List.idxOf_cons_ne _ (Ne.symm hx)]
      congr 1
      omega

theorem code_ok (l : List α) (x : α) (h : x ∈ l) : code (labelMap l) x = .ok ((unique l).idxOf x) := by
  unfold code labelMap
  rw [lookup_zipIdx _ _ _ ((mem_unique l x).mpr h), Nat.zero_add]

/-- A published label map for the classes in `classes`: the codes are `0, …, K-1`, every class has exactly one code, and
greater classes have greater codes. -/
structure IsLabelMap (classes : List α) (m : List (ℕ × α)) : Prop where
  codes : m.map Prod.fst = List.range m.length
  classes : ∀ a, a ∈ m.map Prod.snd ↔ a ∈ classes
  sorted : (m.map Prod.snd).Pairwise (· < ·)

theorem inverseMap_labelMap (l : List α) : inverseMap (labelMap l) = (unique l).zipIdx.map (fun p => (p.2, p.1)) := rfl

theorem map_snd_zipIdx {β : Type} (u : List β) : u.zipIdx.map Prod.snd = List.range u.length := by
  rw [List.zipIdx_map_snd, List.range_eq_range']

theorem isLabelMap (l : List α) : IsLabelMap l (inverseMap (labelMap l)) := by
  have hsnd : (inverseMap (labelMap l)).map Prod.snd = unique l := by
    unfold inverseMap labelMap
    rw [List.map_map]
    exact List.zipIdx_map_fst 0 (unique l)
  have hlen : (inverseMap (labelMap l)).length = (unique l).length := by rw [← hsnd, List.length_map]
  refine ⟨?_, fun a => ?_, ?_⟩
  · unfold inverseMap labelMap
    rw [List.map_map, List.length_map, List.length_zipIdx]
    exact map_snd_zipIdx _
  · rw [hsnd]; exact mem_unique l a
  · rw [hsnd]; exact sorted_unique l

/-- The published map returns, for the code of a class, that class. -/
theorem lookup_inverse (l : List α) (x : α) (h : x ∈ l) :
    (inverseMap (labelMap l)).lookup ((unique l).idxOf x) = some x := by
  have key : ∀ (u : List α) (k : ℕ), x ∈ u → ((u.zipIdx k).map (fun p => (p.2, p.1))).lookup (k + u.idxOf x) = some x := by
    intro u
    induction u with
    | nil => intro k h; cases h
    | cons a u ih =>
      intro k hx
      rw [List.zipIdx_cons, List.map_cons, List.lookup_cons]
      by_cases he : x = a
      · subst he
        simp [List.idxOf_cons_self]
      · have hm : x ∈ u := by
          rcases List.mem_cons.mp hx with h | h
          · exact absurd h he
          · exact h
        rw [List.idxOf_cons_ne _ (Ne.symm he)]
        have : (k + (u.idxOf x + 1) == k) = false := by simp
        rw [this]
        have e : k + (u.idxOf x).succ = (k + 1) + u.idxOf x := by omega
        rw [e]
        exact ih (k + 1) hm
  have := key (unique l) 0 ((mem_unique l x).mpr h)
  rwa [Nat.zero_add] at this

/-- **C53.** For every list of labels the encoding succeeds; the codes `0, …, K-1` follow the order of the classes that
occur, and each code maps back to the label it replaced. -/
theorem C53_multi_class (labels : List α) :
    ∃ codes m, multiClass labels = .ok (codes, m) ∧ IsLabelMap labels m ∧ codes.length = labels.length ∧
      ∀ (i : ℕ) x c, labels[i]? = some x → codes[i]? = some c → m.lookup c = some x := by
  refine ⟨labels.map (fun x => (unique labels).idxOf x), inverseMap (labelMap labels), ?_, isLabelMap labels,
    List.length_map _, fun i x c hx hc => ?_⟩
  · unfold multiClass
    dsimp only
    rw [mapM_eq_map labels (code (labelMap labels)) (fun x => (unique labels).idxOf x) (fun x hx => code_ok labels x hx)]
    rfl
  · rw [List.getElem?_map, hx] at hc
    have := Option.some.inj hc
    subst this
    exact lookup_inverse labels x (List.mem_of_getElem? hx)

/-- **C53** for multi-label data: one map for all classes that occur, and every label list maps back element by element. -/
theorem C53_multi_label (labels : List (List α)) :
    ∃ codes m, multiLabel labels = .ok (codes, m) ∧ IsLabelMap labels.flatten m ∧
      codes.map (fun cs => cs.map (fun c => m.lookup c)) = labels.map (fun l => l.map some) := by
  have hmem : ∀ l ∈ labels, ∀ x ∈ l, x ∈ labels.flatten := fun l hl x hx => List.mem_flatten.mpr ⟨l, hl, hx⟩
  refine ⟨labels.map (fun l => l.map (fun x => (unique labels.flatten).idxOf x)), inverseMap (labelMap labels.flatten), ?_,
    isLabelMap _, ?_⟩
  · unfold multiLabel
    dsimp only
    rw [mapM_eq_map labels _ (fun l => l.map (fun x => (unique labels.flatten).idxOf x)) (fun l hl =>
      mapM_eq_map l (code (labelMap labels.flatten)) _ (fun x hx => code_ok _ x (hmem l hl x hx)))]
    rfl
  · rw [List.map_map]
    refine List.map_congr_left (fun l hl => ?_)
    show (l.map _).map _ = _
    rw [List.map_map]
    exact List.map_congr_left (fun x hx => lookup_inverse _ x (hmem l hl x hx))

/-- **C53** for a `ClassLabel` column with distinct names: the column is kept, the map is the numbering of the names given
with the data set (not sorted), and covers `0, …, K-1`. -/
theorem C53_class_label (names : List α) (hn : names.Nodup) (column : List ℕ) :
    (classLabel names column).1 = column ∧
    (classLabel names column).2.map Prod.fst = List.range names.length ∧
    classNames (classLabel names column).2 = names := by
  refine ⟨rfl, ?_, ?_⟩
  · unfold classLabel inverseMap
    rw [List.map_map, List.map_map]
    refine List.ext_getElem (by simp) (fun i h1 h2 => ?_)
    simp only [List.length_map] at h1
    simp [hn.idxOf_getElem i h1]
  · unfold classNames classLabel inverseMap
    rw [List.map_map, List.map_map]
    exact List.map_id _

/-- Labels 7, 3, 7, 5. -/
example : (multiClass [7, 3, 7, (5 : ℕ)]).toOption = some ([2, 0, 2, 1], [(0, 3), (1, 5), (2, 7)]) := by decide +kernel

example : (multiLabel [[7], [], [3, (7 : ℕ)]]).toOption = some ([[1], [], [0, 1]], [(0, 3), (1, 7)]) := by decide +kernel

end Cleanlab.Props
