import Verif.Model.DatalabInfo
import Verif.Props.DatalabData

/-!
# C103: what Datalab reports about the labels, and what it hands out
-/

namespace Cleanlab.Props

open Np Cleanlab.DatalabData Cleanlab.DatalabInfo Cleanlab.Multilabel

variable {α : Type} [LinearOrder α] {K : ℕ}

/-- `x` is the class with number `c`: a class that occurs, with exactly `c` smaller ones (the columns of `pred_probs` are
documented to be in ascending order of the classes). -/
def IsClass (classes : Finset α) (c : ℕ) (x : α) : Prop := x ∈ classes ∧ (classes.filter (· < x)).card = c

theorem isClass_unique (l : List α) (c : ℕ) (hc : c < (unique l).length) : IsClass l.toFinset c (unique l)[c] := by
  have hs := sorted_unique l
  have hset : l.toFinset = (unique l).toFinset := by
    ext a; rw [List.mem_toFinset, List.mem_toFinset, mem_unique]
  have hnd := nodup_unique l
  refine ⟨by rw [List.mem_toFinset]; exact (mem_unique l _).mp (List.getElem_mem hc), ?_⟩
  rw [hset]
  have : (unique l).toFinset.filter (· < (unique l)[c]) = ((unique l).take c).toFinset := by
    ext a
    rw [Finset.mem_filter, List.mem_toFinset, List.mem_toFinset]
    rw [List.pairwise_iff_getElem] at hs
    constructor
    · rintro ⟨ha, hlt⟩
      obtain ⟨i, hi, rfl⟩ := List.mem_iff_getElem.mp ha
      have hic : i < c := by
        by_contra hge
        rcases Nat.eq_or_lt_of_le (Nat.le_of_not_lt hge) with h | h
        · subst h; exact lt_irrefl _ hlt
        · exact lt_asymm hlt (hs c i hc hi h)
      rw [List.mem_take_iff_getElem]
      exact ⟨i, by omega, rfl⟩
    · intro ha
      obtain ⟨i, hi, rfl⟩ := List.mem_take_iff_getElem.mp ha
      exact ⟨List.getElem_mem _, hs i c (by omega) hc (by omega)⟩
  rw [this, List.toFinset_card_of_nodup (hnd.sublist (List.take_sublist _ _)), List.length_take]
  omega

theorem lookup_zip_swap {β : Type} : ∀ (u : List β) (k c : ℕ),
    ((u.zipIdx k).map (fun p => (p.2, p.1))).lookup (k + c) = u[c]? := by
  intro u
  induction u with
  | nil => intro k c; rfl
  | cons a u ih =>
    intro k c
    rw [List.zipIdx_cons, List.map_cons, List.lookup_cons]
    cases c with
    | zero => simp
    | succ c =>
      have : (k + (c + 1) == k) = false := by simp
      rw [this]
      simp only [List.getElem?_cons_succ]
      rw [← ih (k + 1) c]
      congr 1
      omega

theorem lookup_map (l : List α) (c : ℕ) : (inverseMap (labelMap l)).lookup c = (unique l)[c]? := by
  have := lookup_zip_swap (unique l) 0 c
  rwa [Nat.zero_add] at this

theorem length_map_unique (l : List α) : (inverseMap (labelMap l)).length = (unique l).length := by
  simp [inverseMap, labelMap]

theorem multiClass_eq (raw : List α) :
    multiClass raw = .ok (raw.map (fun x => (unique raw).idxOf x), inverseMap (labelMap raw)) := by
  unfold multiClass
  dsimp only
  rw [mapM_eq_map raw (code (labelMap raw)) (fun x => (unique raw).idxOf x) (fun x hx => code_ok raw x hx)]
  rfl

theorem multiLabel_eq (raw : List (List α)) :
    multiLabel raw = .ok (raw.map (fun l => l.map (fun x => (unique raw.flatten).idxOf x)),
      inverseMap (labelMap raw.flatten)) := by
  have hmem : ∀ l ∈ raw, ∀ x ∈ l, x ∈ raw.flatten := fun l hl x hx => List.mem_flatten.mpr ⟨l, hl, hx⟩
  unfold multiLabel
  dsimp only
  rw [mapM_eq_map raw _ (fun l => l.map (fun x => (unique raw.flatten).idxOf x)) (fun l hl =>
    mapM_eq_map l (code (labelMap raw.flatten)) _ (fun x hx => code_ok _ x (hmem l hl x hx)))]
  rfl

/-- **C103**: whenever the label check of classification data has succeeded and labels are reported, the given labels are
those of the data set and the predicted label of each example is the class of its most likely column; there are as many
columns as classes. -/
theorem C103_class_labels [NeZero K] (raw : List α) (P : List (Fin K → ℚ)) (others : Except String Unit)
    (r : LabelInfo (Option α)) (h : classLabels raw P others = .ok r) :
    r.given = raw.map some ∧ raw.toFinset.card = K ∧ r.predicted.length = P.length ∧
      ∀ i (hi : i < P.length), ∃ x, r.predicted[i]? = some (some x) ∧ IsClass raw.toFinset (argmax (P[i])).val x := by
  unfold classLabels at h
  rw [multiClass_eq] at h
  dsimp only [bind, Except.bind] at h
  unfold classCheck at h
  cases others with
  | error e => cases h
  | ok _ =>
    dsimp only at h
    split_ifs at h with h1 h2
    dsimp only at h
    unfold classInfo at h
    split_ifs at h with h3 h4
    cases h
    push Not at h2
    rw [length_map_unique] at h2
    have hcard : raw.toFinset.card = K := by
      rw [← h2, ← List.toFinset_card_of_nodup (nodup_unique raw)]
      congr 1
      ext a; rw [List.mem_toFinset, List.mem_toFinset, mem_unique]
    refine ⟨?_, hcard, by simp, fun i hi => ?_⟩
    · dsimp only
      rw [List.map_map]
      refine List.map_congr_left (fun x hx => ?_)
      exact lookup_inverse raw x hx
    · have hlt : (argmax (P[i])).val < (unique raw).length := by rw [h2]; exact (argmax (P[i])).isLt
      refine ⟨(unique raw)[(argmax (P[i])).val], ?_, isClass_unique raw _ hlt⟩
      dsimp only
      rw [List.getElem?_map, List.getElem?_map, List.getElem?_eq_getElem hi]
      simp only [Option.map_some]
      rw [lookup_map, List.getElem?_eq_getElem hlt]

/-- **C103**: and conversely, with one column per class, nothing but the remaining conditions of the check stands in the
way. -/
theorem C103_class_succeeds [NeZero K] (raw : List α) (P : List (Fin K → ℚ)) (hraw : raw ≠ []) (hP : P.length = raw.length)
    (hK : raw.toFinset.card = K) : ∃ r, classLabels raw P (.ok ()) = .ok r := by
  have hlen : (unique raw).length = K := by
    rw [← hK, ← List.toFinset_card_of_nodup (nodup_unique raw)]
    congr 1
    ext a; rw [List.mem_toFinset, List.mem_toFinset, mem_unique]
  unfold classLabels
  rw [multiClass_eq]
  dsimp only [bind, Except.bind]
  unfold classCheck
  dsimp only
  rw [if_neg, if_neg]
  · dsimp only
    unfold classInfo
    rw [if_neg, if_neg]
    · exact ⟨_, rfl⟩
    · simp only [List.map_eq_nil_iff]
      rintro (h | h)
      · exact hraw h
      · rw [h] at hP
        exact hraw (List.length_eq_zero_iff.mp hP.symm)
    · intro h0
      have := congrArg List.length h0
      rw [length_map_unique, hlen, List.length_nil] at this
      exact NeZero.ne K this
  · rw [length_map_unique, hlen]; simp
  · simp only [List.any_map, List.any_eq_true, Function.comp_apply, decide_eq_true_eq, not_exists, not_and, not_le]
    intro x hx
    have := List.idxOf_lt_length_iff.mpr ((mem_unique raw x).mpr hx)
    omega

/-- **C103** for a `ClassLabel` column: the predicted label is the name with the number of the most likely column. -/
theorem C103_named_labels [NeZero K] (names : List α) (hn : names.Nodup) (column : List ℕ) (P : List (Fin K → ℚ))
    (others : Except String Unit) (r : LabelInfo (Option α)) (h : namedLabels names column P others = .ok r) :
    names.length = K ∧ r.given = column.map (fun c => names[c]?) ∧ (∀ x ∈ r.given, x.isSome) ∧
      r.predicted = P.map (fun row => names[(argmax row).val]?) ∧ ∀ x ∈ r.predicted, x.isSome := by
  have hmap : (classLabel names column).2 = (names.zipIdx).map (fun p => (p.2, p.1)) := by
    unfold classLabel inverseMap
    dsimp only
    rw [List.map_map]
    refine List.ext_getElem (by simp) (fun i h1 h2 => ?_)
    simp only [List.length_map] at h1
    simp [hn.idxOf_getElem i h1]
  have hlook : ∀ c, (classLabel names column).2.lookup c = names[c]? := by
    intro c
    have := lookup_zip_swap names 0 c
    rw [Nat.zero_add] at this
    rw [hmap]; exact this
  have hcol : (classLabel names column).1 = column := rfl
  unfold namedLabels at h
  rw [hcol] at h
  dsimp only [bind, Except.bind] at h
  unfold classCheck at h
  cases others with
  | error e => cases h
  | ok _ =>
    dsimp only at h
    split_ifs at h with h1 h2
    dsimp only at h
    unfold classInfo at h
    split_ifs at h with h3 h4
    cases h
    push Not at h2
    rw [hmap] at h2
    simp only [List.length_map, List.length_zipIdx] at h2
    simp only [hlook]
    refine ⟨h2, trivial, ?_, ?_, ?_⟩
    · intro x hx
      obtain ⟨c, hc, rfl⟩ := List.mem_map.mp hx
      have : c < names.length := by
        by_contra hge
        apply h1
        rw [List.any_eq_true]
        exact ⟨c, hc, by simpa [h2] using Nat.le_of_not_lt hge⟩
      rw [List.getElem?_eq_getElem this]; rfl
    · rw [List.map_map]; rfl
    · intro x hx
      rw [List.map_map] at hx
      obtain ⟨row, hrow, rfl⟩ := List.mem_map.mp hx
      have : (argmax row).val < names.length := by rw [h2]; exact (argmax row).isLt
      show (names[(argmax row).val]?).isSome
      rw [List.getElem?_eq_getElem this]; rfl

/-- **C103** fails for `ClassLabel` columns: the documentation says that the columns of `pred_probs` are in lexicographic
order of the class names, but the order is that of the names in the data set. Here the first column is taken for class 7,
although class 3 is smaller. -/
theorem C103_not_sorted : (namedLabels (K := 2) [7, (3 : ℕ)] [0, 1] [![1, 0], ![0, 1]] (.ok ())).toOption =
    some ⟨[some 7, some 3], [some 7, some 3]⟩ ∧ ¬ IsClass {7, (3 : ℕ)} 0 7 := by
  constructor
  · decide +kernel
  · unfold IsClass; decide

/-- **C103** for multi-label data, as long as there are no more columns than classes: the given labels are those of the
data set, and the predicted labels are the classes whose probability exceeds 1/2. -/
theorem C103_multi_labels_partial (raw : List (List α)) (P : List (Fin K → ℚ)) (others : Except String Unit)
    (r : LabelInfo (List (Option α))) (h : multiLabels raw P others = .ok r) (hK : K ≤ raw.flatten.toFinset.card) :
    r.given = raw.map (·.map some) ∧ r.predicted.length = P.length ∧
      ∀ i (hi : i < P.length), ∃ ps : List α, r.predicted[i]? = some (ps.map some) ∧
        ∀ x, x ∈ ps ↔ ∃ k : Fin K, 1 / 2 < P[i] k ∧ IsClass raw.flatten.toFinset k.val x := by
  have hlen : (unique raw.flatten).length = raw.flatten.toFinset.card := by
    rw [← List.toFinset_card_of_nodup (nodup_unique raw.flatten)]
    congr 1
    ext a; rw [List.mem_toFinset, List.mem_toFinset, mem_unique]
  unfold multiLabels at h
  rw [multiLabel_eq] at h
  dsimp only [bind, Except.bind] at h
  unfold multiCheck at h
  cases others with
  | error e => cases h
  | ok _ =>
    dsimp only at h
    split_ifs at h with h1
    dsimp only at h
    unfold multiInfo at h
    split_ifs at h with h3
    cases h
    refine ⟨?_, by simp [onehot2int], fun i hi => ?_⟩
    · dsimp only
      rw [List.map_map]
      refine List.map_congr_left (fun l hl => ?_)
      show (l.map _).map _ = _
      rw [List.map_map]
      exact List.map_congr_left (fun x hx => lookup_inverse _ x (List.mem_flatten.mpr ⟨l, hl, hx⟩))
    · have hk : ∀ k : Fin K, k.val < (unique raw.flatten).length := fun k => by
        rw [hlen]; exact lt_of_lt_of_le k.isLt hK
      refine ⟨((List.finRange K).filter (fun k => decide (1 / 2 < P[i] k))).map (fun k => (unique raw.flatten)[k.val]'(hk k)),
        ?_, fun x => ?_⟩
      · dsimp only [onehot2int]
        rw [List.getElem?_map, List.getElem?_map, List.getElem?_map, List.getElem?_eq_getElem hi]
        simp only [Option.map_some, List.map_map]
        congr 1
        refine List.map_congr_left (fun k _ => ?_)
        show (inverseMap (labelMap raw.flatten)).lookup k.val = _
        rw [lookup_map, List.getElem?_eq_getElem (hk k)]
        rfl
      · rw [List.mem_map]
        constructor
        · rintro ⟨k, hkm, rfl⟩
          rw [List.mem_filter] at hkm
          exact ⟨k, by simpa using hkm.2, isClass_unique _ _ (hk k)⟩
        · rintro ⟨k, hkp, hcls⟩
          refine ⟨k, List.mem_filter.mpr ⟨List.mem_finRange k, by simpa using hkp⟩, ?_⟩
          have h' := isClass_unique raw.flatten k.val (hk k)
          have : ∀ a b : α, a ∈ raw.flatten.toFinset → b ∈ raw.flatten.toFinset → a < b →
              (raw.flatten.toFinset.filter (· < a)).card < (raw.flatten.toFinset.filter (· < b)).card := by
            intro a b ha _ hab
            refine Finset.card_lt_card (Finset.ssubset_iff_of_subset ?_ |>.mpr ⟨a, ?_, ?_⟩)
            · intro z hz
              rw [Finset.mem_filter] at hz ⊢
              exact ⟨hz.1, lt_trans hz.2 hab⟩
            · rw [Finset.mem_filter]; exact ⟨ha, hab⟩
            · rw [Finset.mem_filter]; exact fun hz => lt_irrefl _ hz.2
          rcases lt_trichotomy (unique raw.flatten)[k.val] x with hlt | heq | hgt
          · have := this _ _ h'.1 hcls.1 hlt
            rw [h'.2, hcls.2] at this
            exact absurd this (lt_irrefl _)
          · exact heq
          · have := this _ _ hcls.1 h'.1 hgt
            rw [h'.2, hcls.2] at this
            exact absurd this (lt_irrefl _)

/-- **C103** fails for multi-label data in which some class never occurs: the check accepts three columns for the classes 3
and 7, and reports `None` as a predicted label. -/
theorem C103_not_multi_labels : (multiLabels (K := 3) [[7], [3], [3, (7 : ℕ)]] [![0, 1, 1], ![1, 0, 0], ![1, 1, 0]]
    (.ok ())).toOption = some ⟨[[some 7], [some 3], [some 3, some 7]], [[some 7, none], [some 3], [some 3, some 7]]⟩ := by decide +kernel

/-- Non-vacuity: the classes 3, 5 and 7. -/
example : (classLabels (K := 3) [7, 3, (5 : ℕ)] [![0, 1, 0], ![1, 0, 0], ![0, 1, 0]] (.ok ())).toOption =
    some ⟨[some 7, some 3, some 5], [some 5, some 3, some 5]⟩ := by decide +kernel

/-- Two columns too many: the check fails. -/
example : (classLabels (K := 3) [7, (3 : ℕ)] [![0, 1, 0], ![1, 0, 0]] (.ok ())).toOption = none := by decide +kernel

/-! ## Objects handed out -/

variable {V : Type}

/-- The memory is well formed: `info` and everything reachable from it has been allocated, and the dictionaries of the
checks are different from `info`. -/
structure InfoWellFormed (m : Mem V) : Prop where
  info : m.info < m.next
  inner : ∀ s a, (entries m m.info).lookup s = some a → a < m.next
  values : ∀ s a key b, (entries m m.info).lookup s = some a → (entries m a).lookup key = some b → b < m.next

theorem stored_congr (m m' : Mem V) (hwf : InfoWellFormed m) (hi : m'.info = m.info)
    (h : ∀ a, a < m.next → m'.obj a = m.obj a) (name key : String) : stored m' name key = stored m name key := by
  have he : ∀ a, a < m.next → entries m' a = entries m a := fun a ha => by unfold entries; rw [h a ha]
  unfold stored
  rw [hi, he _ hwf.info]
  cases h1 : (entries m m.info).lookup name with
  | none => rfl
  | some d =>
    simp only [Option.bind_eq_bind, Option.bind_some]
    rw [he d (hwf.inner name d h1)]
    cases h2 : (entries m d).lookup key with
    | none => rfl
    | some a =>
      simp only [Option.bind_some]
      rw [h a (hwf.values name d key a h1 h2)]

/-- **C103**: `get_info(name)` gives a copy with the stored entries. Reading changes nothing, and neither do assignments and
deletions in the copy. -/
theorem C103_copy_partial (m m' : Mem V) (hwf : InfoWellFormed m) (s : String) (d : ℕ)
    (h : getInfo m (some s) = .ok (m', d)) :
    (∃ a, (entries m m.info).lookup s = some a ∧ entries m' d = entries m a) ∧
      (∀ name key, stored m' name key = stored m name key) ∧
      (∀ k v name key, stored (assign m' d k v) name key = stored m name key) ∧
      ∀ k name key, stored (remove m' d k) name key = stored m name key := by
  unfold getInfo at h
  dsimp only at h
  cases hs : (entries m m.info).lookup s with
  | none => rw [hs] at h; cases h
  | some a =>
    rw [hs] at h
    cases h
    refine ⟨⟨a, rfl, by simp [entries]⟩, fun name key => ?_, fun k v name key => ?_, fun k name key => ?_⟩
    · refine stored_congr m _ hwf ?_ ?_ name key
      · rfl
      intro b hb
      exact Function.update_of_ne (ne_of_lt hb) _ _
    · refine stored_congr m _ hwf ?_ ?_ name key
      · rfl
      intro b hb
      unfold assign
      dsimp only
      rw [Function.update_of_ne (ne_of_lt hb), Function.update_of_ne (by omega), Function.update_of_ne (ne_of_lt hb)]
    · refine stored_congr m _ hwf ?_ ?_ name key
      · rfl
      intro b hb
      unfold remove
      dsimp only
      rw [Function.update_of_ne (ne_of_lt hb), Function.update_of_ne (ne_of_lt hb)]

theorem lookup_filter_ne (l : List (String × ℕ)) (k k' : String) (h : k' ≠ k) :
    (l.filter (fun e => e.1 ≠ k)).lookup k' = l.lookup k' := by
  induction l with
  | nil => rfl
  | cons e l ih =>
    obtain ⟨x, a⟩ := e
    by_cases hx : x = k
    · have hb : (k' == x) = false := by rw [hx]; exact beq_false_of_ne h
      rw [List.filter_cons_of_neg (by simp [hx]), ih, List.lookup_cons, hb]
    · rw [List.filter_cons_of_pos (by simp [hx]), List.lookup_cons, List.lookup_cons, ih]

theorem lookup_filter_self (l : List (String × ℕ)) (k : String) : (l.filter (fun e => e.1 ≠ k)).lookup k = none := by
  rw [List.lookup_eq_none_iff]
  intro e he
  have := (List.mem_filter.mp he).2
  simp only [ne_eq, decide_not, Bool.not_eq_true', decide_eq_false_iff_not] at this
  simpa using fun hk => this hk.symm

/-- **C103**: what the caller writes into the copy is there afterwards, beside everything written or read before; the memory
stays well formed, so all of this holds for any number of calls and assignments. -/
theorem C103_assigned (m m' : Mem V) (hwf : InfoWellFormed m) (s : String) (d : ℕ)
    (h : getInfo m (some s) = .ok (m', d)) (k : String) (v : List V) :
    InfoWellFormed (assign m' d k v) ∧ d < (assign m' d k v).next ∧
      (∃ a, (entries (assign m' d k v) d).lookup k = some a ∧ (assign m' d k v).obj a = .array v ∧
        m'.next ≤ a ∧ a < (assign m' d k v).next) ∧
      ∀ k', k' ≠ k → (entries (assign m' d k v) d).lookup k' = (entries m' d).lookup k' := by
  unfold getInfo at h
  dsimp only at h
  cases hs : (entries m m.info).lookup s with
  | none => rw [hs] at h; cases h
  | some a =>
    rw [hs] at h
    cases h
    have hobj : ∀ b, b < m.next → (assign { m with
        obj := Function.update m.obj m.next (.dict (entries m a)), next := m.next + 1 } m.next k v).obj b = m.obj b := by
      intro b hb
      unfold assign
      dsimp only
      rw [Function.update_of_ne (ne_of_lt hb), Function.update_of_ne (by omega), Function.update_of_ne (ne_of_lt hb)]
    have hent : ∀ b, b < m.next → entries (assign { m with
        obj := Function.update m.obj m.next (.dict (entries m a)), next := m.next + 1 } m.next k v) b = entries m b := by
      intro b hb
      have he : ∀ M : Mem V, M.obj b = m.obj b → entries M b = entries m b := fun M h => by unfold entries; rw [h]
      exact he _ (hobj b hb)
    have hnext : (assign { m with
        obj := Function.update m.obj m.next (.dict (entries m a)), next := m.next + 1 } m.next k v).next = m.next + 2 := rfl
    have hinfo : (assign { m with
        obj := Function.update m.obj m.next (.dict (entries m a)), next := m.next + 1 } m.next k v).info = m.info := rfl
    have hd : ∀ M : Mem V, entries (assign M m.next k v) m.next =
        (entries M m.next).filter (fun e => e.1 ≠ k) ++ [(k, M.next)] := fun M => by
      simp [assign, entries]
    refine ⟨⟨?_, ?_, ?_⟩, ?_, ⟨m.next + 1, ?_, ?_, le_rfl, ?_⟩, ?_⟩
    · rw [hnext, hinfo]; have := hwf.info; omega
    · intro name b hb
      rw [hinfo, hent _ hwf.info] at hb
      have := hwf.inner name b hb
      rw [hnext]; omega
    · intro name b key c hb hc
      rw [hinfo, hent _ hwf.info] at hb
      rw [hent b (hwf.inner name b hb)] at hc
      have := hwf.values name b key c hb hc
      rw [hnext]; omega
    · rw [hnext]; omega
    · rw [hd, List.lookup_append, lookup_filter_self]
      simp
    · unfold assign
      dsimp only
      rw [Function.update_of_ne (by omega), Function.update_self]
    · rw [hnext]; omega
    · intro k' hk
      rw [hd, List.lookup_append, lookup_filter_ne _ _ _ hk]
      cases (entries _ m.next).lookup k' with
      | some b => rfl
      | none => simp [hk]

/-- **C103**: information about a check that has not been computed is refused, and all other information is found. -/
theorem C103_refuses (m : Mem V) (s : String) :
    (∃ e, getInfo m (some s) = .error e) ↔ (entries m m.info).lookup s = none := by
  unfold getInfo
  dsimp only
  cases (entries m m.info).lookup s <;> simp

/-- A memory with the nearest neighbours found by the outlier check. -/
def exampleMem : Mem ℕ where
  obj := fun a => if a = 0 then .dict [("outlier", 1)] else if a = 1 then .dict [("nearest_neighbor", 2)] else .array [4, 5]
  info := 0
  next := 3

/-- Non-vacuity: it is well formed, and its contents are found. -/
theorem exampleMem_wf : InfoWellFormed exampleMem := by
  have h0 : entries exampleMem 0 = [("outlier", 1)] := rfl
  have h1 : entries exampleMem 1 = [("nearest_neighbor", 2)] := rfl
  have key : ∀ s a, (entries exampleMem exampleMem.info).lookup s = some a → a = 1 := by
    intro s a h
    have h : (entries exampleMem 0).lookup s = some a := h
    rw [h0, List.lookup_cons] at h
    split at h
    · exact (Option.some.inj h).symm
    · cases h
  refine ⟨by decide, fun s a h => ?_, fun s a k b h h' => ?_⟩
  · rw [key s a h]; decide
  · rw [key s a h, h1, List.lookup_cons] at h'
    split at h'
    · rw [← Option.some.inj h']; decide
    · cases h'

example : stored exampleMem "outlier" "nearest_neighbor" = some [4, 5] := by decide +kernel

/-- **C103** fails for `get_info()` without a name: it hands out the dictionary itself, and deleting an entry there deletes
it in Datalab. -/
theorem C103_not_copy : ∃ m' d, getInfo exampleMem none = .ok (m', d) ∧
    stored (remove m' d "outlier") "outlier" "nearest_neighbor" = none :=
  ⟨exampleMem, 0, rfl, by decide +kernel⟩

/-- **C103** fails for the contents of the arrays: the copy refers to the same arrays. -/
theorem C103_not_deep : ∃ m' d, getInfo exampleMem (some "outlier") = .ok (m', d) ∧
    stored (overwrite m' d "nearest_neighbor" []) "outlier" "nearest_neighbor" = some [] :=
  ⟨_, _, rfl, by decide +kernel⟩

end Cleanlab.Props
