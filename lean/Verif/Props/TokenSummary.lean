import Verif.Model.TokenSummary
import Verif.Props.Token

/-!
# C69: summaries of token issues
-/

namespace Cleanlab.Props

open Np Cleanlab.Count Cleanlab.Token Cleanlab.Spec

variable {K : ℕ}

theorem add_spec {ι : Type} [DecidableEq ι] (c : Counts ι) (hc : c.words.Nodup)
    (h0 : ∀ w, w ∉ c.words → ∀ i, c.count w i = 0) (word : String) (i : ι) (skip : Bool) :
    (c.add word i skip).words.Nodup ∧ (∀ w, w ∈ (c.add word i skip).words ↔ w ∈ c.words ∨ w = word) ∧
    ∀ w j, (c.add word i skip).count w j = c.count w j + if w = word ∧ j = i ∧ skip = false then 1 else 0 := by
  unfold Counts.add
  by_cases hw : word ∈ c.words
  · simp only [if_pos hw]
    cases skip
    · refine ⟨hc, fun w => ⟨Or.inl, fun h => h.elim id (fun h => h ▸ hw)⟩, fun w j => ?_⟩
      by_cases h1 : w = word
      · subst h1
        by_cases h2 : j = i
        · subst h2; simp
        · simp [h2]
      · simp [h1]
    · exact ⟨hc, fun w => ⟨Or.inl, fun h => h.elim id (fun h => h ▸ hw)⟩, fun w j => by simp⟩
  · simp only [if_neg hw]
    have hn : (c.words ++ [word]).Nodup := by
      rw [List.nodup_append]
      refine ⟨hc, by simp, ?_⟩
      intro a ha b hb he
      simp at hb
      subst hb; subst he
      exact hw ha
    cases skip
    · refine ⟨hn, fun w => by simp, fun w j => ?_⟩
      by_cases h1 : w = word
      · subst h1
        by_cases h2 : j = i
        · subst h2; simp [h0 w hw]
        · simp [h2, h0 w hw]
      · simp [h1]
    · refine ⟨hn, fun w => by simp, fun w j => ?_⟩
      by_cases h1 : w = word
      · subst h1; simp [h0 w hw]
      · simp [Function.update_of_ne h1]

theorem foldl_add_spec {ι β : Type} [DecidableEq ι] (fw : β → String) (fi : β → ι) (fs : β → Bool) (l : List β)
    (c : Counts ι) (hc : c.words.Nodup) (h0 : ∀ w, w ∉ c.words → ∀ i, c.count w i = 0) :
    let r := l.foldl (fun c b => c.add (fw b) (fi b) (fs b)) c
    r.words.Nodup ∧ (∀ w, w ∈ r.words ↔ w ∈ c.words ∨ ∃ b ∈ l, fw b = w) ∧
    ∀ w j, r.count w j = c.count w j + l.countP (fun b => decide (fw b = w ∧ fi b = j ∧ fs b = false)) := by
  induction l generalizing c with
  | nil => exact ⟨hc, by simp, by simp⟩
  | cons b l ih =>
    obtain ⟨h1, h2, h3⟩ := add_spec c hc h0 (fw b) (fi b) (fs b)
    have h0' : ∀ w, w ∉ (c.add (fw b) (fi b) (fs b)).words → ∀ i, (c.add (fw b) (fi b) (fs b)).count w i = 0 := by
      intro w hw i
      rw [h2] at hw
      push Not at hw
      rw [h3, h0 w hw.1]
      simp [hw.2]
    obtain ⟨g1, g2, g3⟩ := ih _ h1 h0'
    refine ⟨g1, ?_, ?_⟩
    · intro w
      rw [List.foldl_cons, g2, h2]
      simp only [List.mem_cons, exists_eq_or_imp, or_assoc]
      exact or_congr_right (or_congr_left eq_comm)
    · intro w j
      rw [List.foldl_cons, g3, h3, List.countP_cons]
      have : (if w = fw b ∧ j = fi b ∧ fs b = false then 1 else 0) =
          if decide (fw b = w ∧ fi b = j ∧ fs b = false) = true then 1 else 0 := by
        simp only [decide_eq_true_eq, @eq_comm _ w, @eq_comm _ j]
      rw [this]; omega

theorem get2_ok {α : Type} (xs : List (List α)) (p : ℕ × ℕ) (x : α) :
    get2 xs p = .ok x ↔ ∃ row, xs[p.1]? = some row ∧ row[p.2]? = some x := by
  unfold get2
  cases h : xs[p.1]? with
  | none => simp
  | some row =>
    simp only [Option.some.injEq, exists_eq_left']
    cases h2 : row[p.2]? with
    | none => simp
    | some y => simp

theorem countP_mapM {α β : Type} (l : List α) (f : α → Except String β) (m : List β) (h : l.mapM f = .ok m)
    (Q : β → Bool) : m.countP Q = l.countP (fun x => match f x with | .ok y => Q y | .error _ => false) := by
  induction l generalizing m with
  | nil => cases h; rfl
  | cons x l ih =>
    rw [List.mapM_cons] at h
    cases hx : f x with
    | error e => rw [hx] at h; cases h
    | ok y =>
      cases hl : l.mapM f with
      | error e => rw [hx, hl] at h; cases h
      | ok ys =>
        rw [hx, hl] at h
        cases h
        rw [List.countP_cons, List.countP_cons, ih ys hl, hx]

/-- **C69** without labels: one row per word having an issue, with its number of issues, most frequent first. -/
theorem C69_words (A : ArgSort ℤ) (issues : List (ℕ × ℕ)) (tokens : List (List String))
    (hin : ∀ p ∈ issues, ∃ w, get2 tokens p = .ok w) :
    ∃ rows, commonTokens A issues tokens = .ok rows ∧ (rows.map Prod.fst).Nodup ∧
      rows.Pairwise (fun r s => s.2 ≤ r.2) ∧
      ∀ w c, (w, c) ∈ rows ↔
        0 < c ∧ c = issues.countP (fun p => decide (∃ row, tokens[p.1]? = some row ∧ row[p.2]? = some w)) := by
  choose! g hg using hin
  have hm := mapM_eq_map issues (get2 tokens) g hg
  obtain ⟨h1, h2, h3⟩ := foldl_add_spec (fun w : String => w) (fun _ : String => ()) (fun _ => false) (issues.map g)
    Counts.empty (by simp [Counts.empty]) (by simp [Counts.empty])
  set c := (issues.map g).foldl (fun c w => c.add w () false) Counts.empty with hcdef
  have hcount : ∀ w, c.count w () =
      issues.countP (fun p => decide (∃ row, tokens[p.1]? = some row ∧ row[p.2]? = some w)) := by
    intro w
    rw [h3 w ()]
    simp only [Counts.empty, zero_add, and_true]
    rw [List.countP_map]
    refine List.countP_congr (fun p hp => ?_)
    simp only [Function.comp, decide_eq_true_eq]
    rw [← get2_ok, hg p hp]
    simp
  refine ⟨sortOn A (fun r => -(r.2 : ℤ)) (c.words.map (fun w => (w, c.count w ()))), ?_, ?_, ?_, ?_⟩
  · unfold commonTokens
    rw [hm]; rfl
  · refine ((sortOn_perm A _ _).map _).nodup_iff.mpr ?_
    rw [List.map_map]
    exact h1.map (fun a b h => h)
  · exact (sortOn_sorted A (fun r : String × ℕ => -(r.2 : ℤ)) _).imp (fun {a b} hab => by omega)
  · intro w n
    rw [mem_sortOn, List.mem_map]
    have hpos : ∀ w, w ∈ c.words ↔ 0 < c.count w () := by
      intro w
      rw [h2, hcount]
      simp only [Counts.empty, List.not_mem_nil, false_or, List.mem_map, exists_eq_right, List.countP_pos_iff,
        decide_eq_true_eq]
      constructor
      · rintro ⟨p, hp, rfl⟩
        exact ⟨p, hp, (get2_ok _ _ _).mp (hg p hp)⟩
      · rintro ⟨p, hp, h⟩
        rw [← get2_ok, hg p hp] at h
        exact ⟨p, hp, Except.ok.inj h⟩
    constructor
    · rintro ⟨w', hw', he⟩
      simp only [Prod.mk.injEq] at he
      obtain ⟨rfl, rfl⟩ := he
      exact ⟨(hpos _).mp hw', hcount _⟩
    · rintro ⟨h0, rfl⟩
      rw [← hcount] at h0 ⊢
      exact ⟨w, (hpos w).mpr h0, rfl⟩

open Classical in
/-- The issues at word `w` with given class `i` and predicted class `j`. -/
noncomputable def numTokenSwaps [NeZero K] (issues : List (ℕ × ℕ)) (tokens : List (List String)) (labels : List (List (Fin K)))
    (probs : List (List (Fin K → ℚ))) (w : String) (i j : Fin K) : ℕ :=
  issues.countP (fun p => decide ((∃ row, tokens[p.1]? = some row ∧ row[p.2]? = some w) ∧
    ∃ q, IsToken labels probs p.1 p.2 i q ∧ IsPrediction q j))

/-- **C69** with labels: each row is a word and a swap that is not excluded, with its number of issues; each occurs once,
most frequent first. -/
theorem C69_swaps [NeZero K] (A : ArgSort ℤ) (issues : List (ℕ × ℕ)) (tokens : List (List String))
    (labels : List (List (Fin K))) (probs : List (List (Fin K → ℚ))) (exclude : List (Fin K × Fin K))
    (hin : ∀ p ∈ issues, (∃ w, get2 tokens p = .ok w) ∧ ∃ y q, IsToken labels probs p.1 p.2 y q) :
    ∃ rows, commonSwaps A issues tokens labels probs exclude = .ok rows ∧
      (rows.map (fun r => (r.1, r.2.1, r.2.2.1))).Nodup ∧ rows.Pairwise (fun r s => s.2.2.2 ≤ r.2.2.2) ∧
      ∀ w i j c, (w, i, j, c) ∈ rows ↔
        0 < c ∧ (i, j) ∉ exclude ∧ c = numTokenSwaps issues tokens labels probs w i j := by
  have hfetch : ∀ p ∈ issues, ∃ f, fetch tokens labels probs p = .ok f ∧
      ∀ w i j, f = (w, i, j) ↔ (∃ row, tokens[p.1]? = some row ∧ row[p.2]? = some w) ∧
        ∃ q, IsToken labels probs p.1 p.2 i q ∧ IsPrediction q j := by
    intro p hp
    obtain ⟨⟨w, hw⟩, y, q, hy, hq⟩ := hin p hp
    have hy' := (get2_ok labels p y).mpr hy
    have hq' := (get2_ok probs p q).mpr hq
    refine ⟨(w, y, argmax q), ?_, ?_⟩
    · unfold fetch
      simp only [hw, hy', hq', bind, Except.bind]
      rfl
    · intro w' i j
      constructor
      · intro he
        cases he
        exact ⟨(get2_ok _ _ _).mp hw, q, ⟨hy, hq⟩, (argmax_eq_iff_isPrediction q _).mp rfl⟩
      · rintro ⟨h1, q', ⟨h2, h3⟩, h4⟩
        rw [← get2_ok, hw] at h1; cases h1
        have h2' := (get2_ok labels p i).mpr h2
        have h3' := (get2_ok probs p q').mpr h3
        rw [hy'] at h2'; cases h2'
        rw [hq'] at h3'; cases h3'
        rw [← argmax_eq_iff_isPrediction] at h4
        rw [h4]
  choose! g hg hg' using hfetch
  have hm := mapM_eq_map issues (fetch tokens labels probs) g hg
  obtain ⟨h1, h2, h3⟩ := foldl_add_spec (fun f : String × Fin K × Fin K => f.1) (fun f => f.2)
    (fun f => decide (f.2 ∈ exclude)) (issues.map g) Counts.empty (by simp [Counts.empty]) (by simp [Counts.empty])
  set c := (issues.map g).foldl (fun c f => c.add f.1 f.2 (decide (f.2 ∈ exclude))) Counts.empty with hcdef
  have hcount : ∀ w i j, c.count w (i, j) = if (i, j) ∈ exclude then 0 else numTokenSwaps issues tokens labels probs w i j := by
    intro w i j
    rw [h3 w (i, j)]
    simp only [Counts.empty, zero_add]
    rw [List.countP_map]
    split_ifs with he
    · rw [List.countP_eq_zero]
      intro p _
      simp only [Function.comp, decide_eq_true_eq]
      rintro ⟨-, h5, h6⟩
      rw [h5] at h6
      simp [he] at h6
    · unfold numTokenSwaps
      refine List.countP_congr (fun p hp => ?_)
      simp only [Function.comp, decide_eq_true_eq, decide_eq_false_iff_not]
      rw [← hg' p hp]
      constructor
      · rintro ⟨h4, h5, -⟩
        rw [← h4, ← h5]
      · intro h4
        rw [h4]; exact ⟨rfl, rfl, he⟩
  set L := c.words.flatMap (fun w => (List.finRange K).flatMap (fun i =>
    (List.finRange K).filterMap (fun j => if c.count w (i, j) > 0 then some (w, i, j, c.count w (i, j)) else none))) with hL
  have hmemrow : ∀ (w : String) (i : Fin K) (x : String × Fin K × Fin K × ℕ),
      x ∈ (List.finRange K).filterMap (fun j => if c.count w (i, j) > 0 then some (w, i, j, c.count w (i, j)) else none) ↔
        x.1 = w ∧ x.2.1 = i ∧ 0 < c.count w (i, x.2.2.1) ∧ x.2.2.2 = c.count w (i, x.2.2.1) := by
    intro w i x
    simp only [List.mem_filterMap, List.mem_finRange, true_and]
    constructor
    · rintro ⟨j, hj⟩
      split_ifs at hj with hpos
      simp only [Option.some.injEq] at hj
      rw [← hj]
      exact ⟨rfl, rfl, hpos, rfl⟩
    · obtain ⟨a, b, d, e⟩ := x
      rintro ⟨r1, r2, r3, r4⟩
      simp only at r1 r2 r3 r4
      subst r1; subst r2; subst r4
      exact ⟨d, by rw [if_pos r3]⟩
  refine ⟨sortOn A (fun r => -(r.2.2.2 : ℤ)) L, ?_, ?_, ?_, ?_⟩
  · unfold commonSwaps
    rw [hm]; rfl
  · refine ((sortOn_perm A _ _).map _).nodup_iff.mpr ?_
    rw [hL, List.map_flatMap, List.nodup_flatMap]
    constructor
    · intro w _
      rw [List.map_flatMap, List.nodup_flatMap]
      constructor
      · intro i _
        rw [List.map_filterMap]
        refine (List.nodup_finRange K).filterMap ?_
        intro a b x ha hb
        simp only [Option.mem_def, Option.map_eq_some_iff] at ha hb
        obtain ⟨u, hu, rfl⟩ := ha
        obtain ⟨v, hv, he⟩ := hb
        split_ifs at hu hv
        simp only [Option.some.injEq] at hu hv
        subst hu; subst hv
        simp only [Prod.mk.injEq, true_and] at he
        exact he.symm
      · refine (List.nodup_finRange K).imp (fun {i i'} hne => ?_)
        show List.Disjoint _ _
        intro x hx hx'
        obtain ⟨y, hy, rfl⟩ := List.mem_map.mp hx
        obtain ⟨y', hy', he⟩ := List.mem_map.mp hx'
        have e1 := ((hmemrow w i y).mp hy).2.1
        have e2 := ((hmemrow w i' y').mp hy').2.1
        simp only [Prod.mk.injEq] at he
        exact hne (e1.symm.trans (he.2.1.symm.trans e2))
    · refine h1.imp (fun {w w'} hne => ?_)
      show List.Disjoint _ _
      intro x hx hx'
      obtain ⟨y, hy, rfl⟩ := List.mem_map.mp hx
      obtain ⟨y', hy', he⟩ := List.mem_map.mp hx'
      obtain ⟨i, -, hy⟩ := List.mem_flatMap.mp hy
      obtain ⟨i', -, hy'⟩ := List.mem_flatMap.mp hy'
      have e1 := ((hmemrow w i y).mp hy).1
      have e2 := ((hmemrow w' i' y').mp hy').1
      simp only [Prod.mk.injEq] at he
      exact hne (e1.symm.trans (he.1.symm.trans e2))
  · exact (sortOn_sorted A (fun r : String × Fin K × Fin K × ℕ => -(r.2.2.2 : ℤ)) _).imp (fun {a b} hab => by omega)
  · intro w i j n
    rw [mem_sortOn, hL]
    simp only [List.mem_flatMap]
    constructor
    · rintro ⟨w', hw', i', -, hx⟩
      obtain ⟨e1, e2, e3, e4⟩ := (hmemrow w' i' _).mp hx
      simp only at e1 e2 e3 e4
      subst e1; subst e2
      rw [hcount] at e3 e4
      split_ifs at e3 e4 with he
      · omega
      · exact ⟨by omega, he, e4⟩
    · rintro ⟨h0, he, hn⟩
      have hc : c.count w (i, j) = n := by rw [hcount, if_neg he, hn]
      refine ⟨w, ?_, i, List.mem_finRange i, (hmemrow w i _).mpr ⟨rfl, rfl, ?_, hc.symm⟩⟩
      · rw [h2]
        refine Or.inr ?_
        rw [hn] at h0
        unfold numTokenSwaps at h0
        rw [List.countP_pos_iff] at h0
        obtain ⟨p, hp, h5⟩ := h0
        simp only [decide_eq_true_eq] at h5
        rw [← hg' p hp] at h5
        exact ⟨g p, List.mem_map_of_mem hp, by rw [h5]⟩
      · show 0 < c.count w (i, j)
        omega

example : (commonSwaps (stableSort ℤ) [(0, 1), (1, 0), (1, 1)] [["a", "b"], ["b", "a"]] [[(0 : Fin 2), 0], [0, 1]]
    [[![9/10, 1/10], ![1/10, 9/10]], [![1/10, 9/10], ![9/10, 1/10]]] [(1, 0)]).toOption = some [("b", 0, 1, 2)] := by
  decide +kernel

/-- **C69**: `filter_by_token` keeps exactly the issues at the requested token, ignoring case, in their order. -/
theorem C69_filter_by_token (lower : String → String) (token : String) (issues : List (ℕ × ℕ)) (tokens : List (List String))
    (hin : ∀ p ∈ issues, ∃ w, get2 tokens p = .ok w) :
    ∃ l, filterByToken lower token issues tokens = .ok l ∧ l.Sublist issues ∧
      ∀ p, p ∈ l ↔ p ∈ issues ∧ ∃ row w, tokens[p.1]? = some row ∧ row[p.2]? = some w ∧ lower token = lower w := by
  choose! g hg using hin
  have key : ∀ p ∈ issues, ∀ w, (∃ row, tokens[p.1]? = some row ∧ row[p.2]? = some w) ↔ g p = w := by
    intro p hp w
    rw [← get2_ok, hg p hp]
    simp
  refine ⟨issues.filter (fun p => decide (lower token = lower (g p))), ?_, List.filter_sublist, ?_⟩
  · unfold filterByToken
    clear key
    induction issues with
    | nil => rfl
    | cons p l ih =>
      rw [List.filterMapM_cons, hg p (by simp)]
      have := ih (fun q hq => hg q (by simp [hq]))
      simp only [bind, Except.bind, Except.map]
      by_cases hp : lower token = lower (g p)
      · rw [if_pos hp, List.filter_cons_of_pos (by simpa using hp)]
        simp only [Except.map] at this
        simp only [this]
        rfl
      · rw [if_neg hp, List.filter_cons_of_neg (by simpa using hp)]
        exact this
  · intro p
    rw [List.mem_filter, decide_eq_true_eq]
    refine and_congr_right (fun hp => ?_)
    constructor
    · intro h
      obtain ⟨row, h1, h2⟩ := (key p hp (g p)).mpr rfl
      exact ⟨row, g p, h1, h2, h⟩
    · rintro ⟨row, w, h1, h2, h3⟩
      rw [(key p hp w).mp ⟨row, h1, h2⟩]; exact h3

end Cleanlab.Props
