import Verif.Model.Report
import Verif.Props.DataIssues
import Verif.Props.DetectionSummary
import Verif.Props.Regression
import Verif.Props.Token
import Verif.Props.DatalabChecks

/-!
# C93: the report
-/

namespace Cleanlab.Props

open Np Cleanlab.DataIssues Cleanlab.Report

variable {n : ℕ}

/-! ## What is stored after a history -/

theorem lookup_setKey {β : Type} (d : List (String × β)) (k c : String) (v : β) :
    (setKey d k v).lookup c = if c = k then some v else d.lookup c := by
  unfold setKey
  induction d with
  | nil =>
    by_cases h : c = k
    · subst h; simp
    · have : (c == k) = false := by simpa using h
      simp [List.lookup, this, h]
  | cons e t ih =>
    obtain ⟨k', w⟩ := e
    by_cases hk : k' = k
    · subst hk
      simp only [ne_eq, not_true_eq_false, decide_false, Bool.false_eq_true, not_false_eq_true, List.filter_cons_of_neg]
      rw [ih]
      by_cases h : c = k'
      · simp [h]
      · have : (c == k') = false := by simpa using h
        simp [List.lookup, this, h]
    · rw [List.filter_cons_of_pos (by simpa using hk), List.cons_append]
      by_cases h : c = k'
      · subst h
        simp [List.lookup, hk]
      · have : (c == k') = false := by simpa using h
        simp only [List.lookup, this]
        exact ih

theorem info_inv (l : List (Manager n)) (hl : ∀ m ∈ l, (m.columns.lookup (flagColumn m.name)).isSome) (name : String)
    (m : Manager n) (hm : IsLast l (fun m => m.name = name) m) :
    (l.foldl collect (init n)).info.lookup name = some m.info := by
  induction l using List.reverseRecOn with
  | nil =>
    obtain ⟨l₁, l₂, h, _⟩ := hm
    simp at h
  | append_singleton l a ih =>
    rw [List.foldl_append, List.foldl_cons, List.foldl_nil]
    obtain ⟨c, hc⟩ := Option.isSome_iff_exists.mp (hl a (by simp))
    have hi : (collect (l.foldl collect (init n)) a).info = setKey (l.foldl collect (init n)).info a.name a.info := by
      unfold DataIssues.collect
      simp only [hc]
    rw [hi, lookup_setKey]
    rcases (isLast_append l _ a m).mp hm with ⟨h1, rfl⟩ | ⟨h1, h2⟩
    · rw [if_pos h1.symm]
    · rw [if_neg (fun h => h1 h.symm)]
      exact ih (fun m hm => hl m (by simp [hm])) h2

/-! ## Which report -/

/-- **C93**: without any summary nothing is reported; "no issues" is reported exactly if no check in the summary has a
flagged example (unless all checks are asked for). -/
theorem C93_kind (A : ArgSort ℚ) (A' : ArgSort ℤ) (registry : String → Option (List (List String))) (s : State n)
    (showAll : Bool) (k v : ℕ) (out : Output n) (h : report A A' registry s showAll k v = .ok out) :
    (out = .nothing ↔ s.summary = []) ∧
    (out = .noIssues ↔ s.summary ≠ [] ∧ showAll = false ∧ ∀ r ∈ s.summary, r.2.2 = 0) := by
  unfold report at h
  have hsum : (s.summary.map (·.2.2)).sum = 0 ↔ ∀ r ∈ s.summary, r.2.2 = 0 := by
    rw [List.sum_eq_zero_iff]
    constructor
    · exact fun h r hr => h _ (List.mem_map.mpr ⟨r, hr, rfl⟩)
    · intro h x hx
      obtain ⟨r, hr, rfl⟩ := List.mem_map.mp hx
      exact h r hr
  by_cases h1 : s.summary = []
  · rw [if_pos h1] at h
    cases Except.ok.inj h
    simp [h1]
  · rw [if_neg h1] at h
    by_cases h2 : showAll = false ∧ (s.summary.map (·.2.2)).sum = 0
    · rw [if_pos h2] at h
      cases Except.ok.inj h
      refine ⟨by simp [h1], ?_⟩
      simp only [true_iff]
      exact ⟨h1, h2.1, hsum.mp h2.2⟩
    · rw [if_neg h2] at h
      have hf : ∃ rows secs, out = .full rows secs := by
        revert h
        dsimp only [bind, Except.bind, pure, Except.pure]
        cases (issueTypes showAll (sortOn A' (fun r : String × ℚ × ℕ => -(r.2.2 : ℤ)) s.summary)).mapM
          (sectionOf A registry s k v) with
        | error e => intro h; cases h
        | ok secs => intro h; exact ⟨_, _, (Except.ok.inj h).symm⟩
      obtain ⟨rows, secs, rfl⟩ := hf
      refine ⟨by simp [h1], ?_⟩
      simp only [reduceCtorEq, false_iff]
      rintro ⟨_, h3, h4⟩
      exact h2 ⟨h3, hsum.mpr h4⟩

/-! ## Sections -/

/-- The examples listed in a section: the `k` lowest scores in increasing order. -/
def IsTop (k : ℕ) (score : Fin n → ℚ) (examples : List (Fin n)) : Prop :=
  examples.length = min k n ∧ examples.Nodup ∧ examples.Pairwise (fun i j => score i ≤ score j) ∧
    ∀ i ∈ examples, ∀ j, j ∉ examples → score i ≤ score j

theorem take_isTop (A : ArgSort ℚ) (k : ℕ) (score : Fin n → ℚ) : IsTop k score ((A.indices score).take k) := by
  refine ⟨by simp [A.length_indices], (A.nodup_indices score).sublist (List.take_sublist _ _),
    (A.pairwise_indices score).sublist (List.take_sublist _ _), ?_⟩
  intro i hi j hj
  have hj' : j ∈ (A.indices score).drop k := by
    have := A.mem_indices score j
    rw [← List.take_append_drop k (A.indices score), List.mem_append] at this
    exact this.resolve_left hj
  have hp := A.pairwise_indices score
  rw [← List.take_append_drop k (A.indices score), List.pairwise_append] at hp
  exact hp.2.2 i hi j hj'

theorem contains_own (name : String) :
    contains name (flagColumn name) = true ∧ contains name (scoreColumn name) = true := by
  unfold contains
  rw [decide_eq_true_iff, decide_eq_true_iff, flagColumn_toList, scoreColumn_toList]
  exact ⟨⟨_, _, rfl⟩, ⟨[], "_score".toList, rfl⟩⟩

/-- One section after a history of standard checks. -/
theorem section_spec (A : ArgSort ℚ) (registry : String → Option (List (List String))) (h : List (List (Outcome n)))
    (hn : 0 < n) (hstd : ∀ m ∈ successes h, Standard m) (k v : ℕ) (name : String) (m : Manager n)
    (hm : IsLast (successes h) (fun m => m.name = name) m) (levels : List (List String)) (hr : registry name = some levels)
    (hv : v ≤ levels.length) (hk : ∀ l ∈ levels, ∀ key ∈ l, key ∈ m.info.map (·.1)) :
    ∃ sec, sectionOf A registry (runHistory h) k v name = .ok sec ∧ sec.name = name ∧ sec.count = flaggedCount m ∧
      sec.score = m.score ∧
      (∃ score : Fin n → ℚ, (scoreColumn name, fun i => Cell.num (score i)) ∈ m.columns ∧ IsTop k score sec.examples) ∧
      (∀ key ∈ sec.shown, key ∈ m.info.map (·.1)) := by
  obtain ⟨hi, hs, hinfo⟩ := history_same (init n) h
  have hlast := hm
  obtain ⟨l₁, l₂, hl, hname, _⟩ := hm
  have hmem : m ∈ successes h := by rw [hl]; simp
  obtain ⟨flag, score, hcols⟩ := hstd m hmem
  have hlook : ∀ m ∈ successes h, (m.columns.lookup (flagColumn m.name)).isSome := fun m hm => standard_lookup m (hstd m hm)
  have hnd : ((runHistory h).issues.map (·.1)).Nodup := by
    apply C46_columns_nodup h
    intro m' hm'
    obtain ⟨f, sc, hc⟩ := hstd m' hm'
    rw [hc]
    simp [flagColumn_ne_score]
  obtain ⟨c1, c2, _⟩ := C46_columns_partial h hstd
  have hf : (flagColumn name, fun i => Cell.bool (flag i)) ∈ (runHistory h).issues :=
    (c1 name _).mpr ⟨m, hlast, by rw [hcols, hname]; simp⟩
  have hsc : (scoreColumn name, fun i => Cell.num (score i)) ∈ (runHistory h).issues :=
    (c2 name _).mpr ⟨m, hlast, by rw [hcols, hname]; simp⟩
  have hin : (runHistory h).info.lookup name = some m.info := by
    have := info_inv (successes h) hlook name m hlast
    rw [← hinfo] at this
    exact this
  -- the table of the check
  have hcon := contains_own name
  have hgi : getIssues (runHistory h) (some name) =
      .ok ((runHistory h).issues.filter (fun c => contains name c.1)) := by
    unfold getIssues
    have hne : (runHistory h).issues ≠ [] := List.ne_nil_of_mem hf
    rw [if_neg (by simp only [not_or]; exact ⟨hne, hn.ne'⟩)]
    dsimp only
    rw [if_neg (List.ne_nil_of_mem (List.mem_filter.mpr ⟨hf, hcon.1⟩)), hin]
  have hnd' : (((runHistory h).issues.filter (fun c => contains name c.1)).map Prod.fst).Nodup :=
    hnd.sublist (List.filter_sublist.map _)
  have hlf := (lookup_of_mem _ hnd' (flagColumn name) _).mpr (List.mem_filter.mpr ⟨hf, hcon.1⟩)
  have hls := (lookup_of_mem _ hnd' (scoreColumn name) _).mpr (List.mem_filter.mpr ⟨hsc, hcon.2⟩)
  -- its row of the summary
  have hrow : (name, m.score, flaggedCount m) ∈ (runHistory h).summary :=
    ((C46_summary_partial h hstd).2 name m.score (flaggedCount m)).mpr ⟨m, hlast, rfl, rfl⟩
  have hgs : ∃ r rest, getIssueSummary (runHistory h) (some name) = .ok (r :: rest) ∧ r.2.1 = m.score := by
    unfold getIssueSummary
    rw [if_neg (List.ne_nil_of_mem hrow)]
    dsimp only
    have hmemf : (name, m.score, flaggedCount m) ∈ (runHistory h).summary.filter (fun r => r.1 = name) :=
      List.mem_filter.mpr ⟨hrow, by simp⟩
    rw [if_neg (List.ne_nil_of_mem hmemf)]
    cases hfr : (runHistory h).summary.filter (fun r => r.1 = name) with
    | nil => rw [hfr] at hmemf; cases hmemf
    | cons r rest =>
      refine ⟨r, rest, rfl, ?_⟩
      have hr : r ∈ (runHistory h).summary.filter (fun r => r.1 = name) := by rw [hfr]; simp
      obtain ⟨hr1, hr2⟩ := List.mem_filter.mp hr
      obtain ⟨a, b, c⟩ := r
      have ha : a = name := of_decide_eq_true hr2
      have e1 := (lookup_of_mem _ (C46_summary_partial h hstd).1 name (b, c)).mpr (ha ▸ hr1)
      have e2 := (lookup_of_mem _ (C46_summary_partial h hstd).1 name (m.score, flaggedCount m)).mpr hrow
      rw [e1] at e2
      cases e2
      rfl
  obtain ⟨r, rest, hgs, hrs⟩ := hgs
  have hkeys : ∀ key ∈ infoToPrint levels (((runHistory h).issues.filter (fun c => contains name c.1)).map (·.1))
      (m.info.map (·.1)) v, key ∈ m.info.map (·.1) := by
    intro key hkey
    unfold infoToPrint at hkey
    rw [List.mem_filter, List.mem_append] at hkey
    rcases hkey.1 with h1 | h1
    · obtain ⟨l, hl1, hl2⟩ := List.mem_flatten.mp h1
      exact hk l (List.mem_of_mem_take hl1) key hl2
    · split_ifs at h1
      · exact h1
      · cases h1
  refine ⟨⟨name, numIssues (fun i => Cell.bool (flag i)), r.2.1,
    (A.indices (fun i => cellValue (Cell.num (score i)))).take k, _⟩, ?_, rfl, ?_, hrs, ⟨score, ?_, ?_⟩, hkeys⟩
  · unfold sectionOf
    rw [hr, hgi, hgs, hin]
    dsimp only [Option.elim, bind, Except.bind]
    unfold section'
    rw [if_neg (by omega), hls, hlf]
    dsimp only
    rw [if_pos (by rw [List.all_eq_true]; intro key hkey; exact decide_eq_true (hkeys key hkey))]
    rfl
  · show numIssues _ = _
    unfold flaggedCount
    rw [hcols]
    simp [List.lookup, numIssues, cellTrue_iff]
  · rw [hcols, hname]; simp
  · exact take_isTop A k score

/-- The checks of images, which have a report of their own. -/
def cleanVisionChecks : List String :=
  ["dark", "light", "low_information", "odd_aspect_ratio", "odd_size", "grayscale", "blurry"]

/-- **C93**: after any history of standard checks the report (if it is not empty) succeeds for every verbosity that all
reported checks support; its rows and its sections are the checks with a flagged example, most flagged first, or all
checks if asked; a section shows the count, score and lowest-scoring examples of the latest success. -/
theorem C93_complete (A : ArgSort ℚ) (A' : ArgSort ℤ) (registry : String → Option (List (List String)))
    (h : List (List (Outcome n))) (hn : 0 < n) (hstd : ∀ m ∈ successes h, Standard m) (showAll : Bool) (k v : ℕ)
    (hreg : ∀ m ∈ successes h, m.name ∉ cleanVisionChecks → ∃ levels, registry m.name = some levels ∧ v ≤ levels.length ∧
      ∀ l ∈ levels, ∀ key ∈ l, key ∈ m.info.map (·.1))
    (hne : (runHistory h).summary ≠ []) (hfull : showAll = true ∨ ∃ r ∈ (runHistory h).summary, 0 < r.2.2) :
    ∃ rows secs, report A A' registry (runHistory h) showAll k v = .ok (.full rows secs) ∧
      (∀ r, r ∈ rows ↔ r ∈ (runHistory h).summary ∧ (showAll = true ∨ 0 < r.2.2)) ∧
      (rows.map (·.1)).Nodup ∧ rows.Pairwise (fun r r' => r'.2.2 ≤ r.2.2) ∧
      secs.map (·.name) = (rows.map (·.1)).filter (fun t => t ∉ cleanVisionChecks) ∧
      ∀ sec ∈ secs, ∃ m, IsLast (successes h) (fun m => m.name = sec.name) m ∧ sec.count = flaggedCount m ∧
        sec.score = m.score ∧
        (∃ score : Fin n → ℚ, (scoreColumn sec.name, fun i => Cell.num (score i)) ∈ m.columns ∧
          IsTop k score sec.examples) ∧
        (∀ key ∈ sec.shown, key ∈ m.info.map (·.1)) := by
  obtain ⟨hnd, hrows⟩ := C46_summary_partial h hstd
  set sorted := sortOn A' (fun r : String × ℚ × ℕ => -(r.2.2 : ℤ)) (runHistory h).summary with hsorted
  have hperm : sorted.Perm (runHistory h).summary := sortOn_perm A' _ _
  have hsp : sorted.Pairwise (fun r r' => r'.2.2 ≤ r.2.2) :=
    (sortOn_sorted A' (fun r : String × ℚ × ℕ => -(r.2.2 : ℤ)) _).imp (fun h => by
      have := neg_le_neg_iff.mp h
      exact_mod_cast this)
  set rows := if showAll then sorted else sorted.filter (fun r => decide (0 < r.2.2)) with hrowsdef
  have hrows' : rows = sorted.filter (fun r => showAll || decide (0 < r.2.2)) := by
    rw [hrowsdef]
    cases showAll <;> simp
  have htypes : issueTypes showAll sorted = (rows.map (·.1)).filter (fun t => t ∉ cleanVisionChecks) := by
    unfold issueTypes
    rw [hrows', List.filter_map, List.filter_filter]
    rfl
  -- every section
  have hsec : ∀ t ∈ issueTypes showAll sorted, ∃ sec, sectionOf A registry (runHistory h) k v t = .ok sec ∧
      (sec.name = t ∧ ∃ m, IsLast (successes h) (fun m => m.name = t) m ∧ sec.count = flaggedCount m ∧
        sec.score = m.score ∧ (∃ score : Fin n → ℚ, (scoreColumn t, fun i => Cell.num (score i)) ∈ m.columns ∧
          IsTop k score sec.examples) ∧ (∀ key ∈ sec.shown, key ∈ m.info.map (·.1))) := by
    intro t ht
    unfold issueTypes at ht
    obtain ⟨r, hr, rfl⟩ := List.mem_map.mp ht
    obtain ⟨hr1, hr2⟩ := List.mem_filter.mp hr
    rw [Bool.and_eq_true] at hr2
    obtain ⟨m, hm, _⟩ := (hrows r.1 r.2.1 r.2.2).mp (hperm.mem_iff.mp hr1)
    have hlast := hm
    obtain ⟨l₁, l₂, hl, hname, _⟩ := hm
    have hmem : m ∈ successes h := by rw [hl]; simp
    obtain ⟨levels, g1, g2, g3⟩ := hreg m hmem (by rw [hname]; exact of_decide_eq_true hr2.1)
    rw [hname] at g1
    obtain ⟨sec, s1, s2, s3⟩ := section_spec A registry h hn hstd k v r.1 m hlast levels g1 g2 g3
    exact ⟨sec, s1, s2, m, hlast, s3⟩
  obtain ⟨secs, hmap, hlen, hq⟩ := mapM_exists _ _ _ hsec
  refine ⟨rows, secs, ?_, ?_, ?_, ?_, ?_, ?_⟩
  · unfold report
    rw [if_neg hne, if_neg]
    · dsimp only
      rw [← hsorted, hmap]
      rfl
    · rintro ⟨h1, h2⟩
      rcases hfull with h3 | ⟨r, hr, hr'⟩
      · rw [h1] at h3; cases h3
      · have := List.sum_eq_zero_iff.mp h2 r.2.2 (List.mem_map.mpr ⟨r, hr, rfl⟩)
        omega
  · intro r
    rw [hrows', List.mem_filter, hperm.mem_iff]
    simp
  · rw [hrows']
    exact ((hperm.map _).nodup_iff.mpr hnd).sublist (List.filter_sublist.map _)
  · rw [hrows']
    exact hsp.sublist List.filter_sublist
  · rw [← htypes]
    apply List.ext_getElem?
    intro i
    rw [List.getElem?_map]
    by_cases hi : i < secs.length
    · have hi' : i < (issueTypes showAll sorted).length := by omega
      rw [List.getElem?_eq_getElem hi, List.getElem?_eq_getElem hi', Option.map_some]
      exact congrArg some (hq i _ _ (List.getElem?_eq_getElem hi') (List.getElem?_eq_getElem hi)).1
    · rw [List.getElem?_eq_none (by omega), List.getElem?_eq_none (by omega)]
      rfl
  · intro sec hs
    obtain ⟨i, hi, rfl⟩ := List.mem_iff_getElem.mp hs
    have hi' : i < (issueTypes showAll sorted).length := by omega
    obtain ⟨e, m, q⟩ := hq i _ _ (List.getElem?_eq_getElem hi') (List.getElem?_eq_getElem hi)
    rw [e]
    exact ⟨m, q⟩

/-- **C93**: a higher (supported) verbosity shows more, and the highest all information. -/
theorem C93_verbosity (levels : List (List String)) (columns keys : List String) (v v' : ℕ) (h : v ≤ v')
    (h' : v' ≤ levels.length) :
    (∀ key ∈ infoToPrint levels columns keys v, key ∈ infoToPrint levels columns keys v') ∧
    (∀ key ∈ keys, key ∉ columns → key ∈ infoToPrint levels columns keys levels.length) := by
  unfold infoToPrint
  constructor
  · intro key hk
    rw [List.mem_filter, List.mem_append] at hk ⊢
    refine ⟨?_, hk.2⟩
    rcases hk.1 with h1 | h1
    · left
      obtain ⟨l, hl, hl'⟩ := List.mem_flatten.mp h1
      exact List.mem_flatten.mpr ⟨l, (List.take_subset_take_left levels (by omega : v + 1 ≤ v' + 1)) hl, hl'⟩
    · right
      split_ifs at h1 with hv
      · rw [if_pos (by omega)]; exact h1
      · cases h1
  · intro key hk hc
    rw [List.mem_filter, List.mem_append, if_pos rfl]
    exact ⟨Or.inr hk, by simpa using hc⟩

/-- **C50**, in the tables of Datalab: the flag says that all values of the row are missing, the score is the fraction of
values present, and the score of the data set is its average. -/
theorem C50_table {d : ℕ} (hd : 0 < d) (null : Fin n → Fin d → Bool) :
    (nullManager null).name = "null" ∧
    (nullManager null).columns.map Prod.fst = ["is_null_issue", "null_score"] ∧
    (∀ f, ("is_null_issue", f) ∈ (nullManager null).columns → ∀ i, f i = .bool (decide (∀ j, null i j = true))) ∧
    (∀ f, ("null_score", f) ∈ (nullManager null).columns →
      ∀ i, f i = .num (((Finset.univ.filter (fun j => null i j = false)).card : ℚ) / (d : ℚ))) ∧
    (nullManager null).score = (∑ i, ((Finset.univ.filter (fun j => null i j = false)).card : ℚ) / (d : ℚ)) / n := by
  have e : ∀ i, ((Checks.nonNull null i : ℤ) : ℚ) / d = ((Finset.univ.filter (fun j => null i j = false)).card : ℚ) / (d : ℚ) := by
    intro i
    have h := (C50_scores null i).2 hd
    unfold Checks.nullRow at h
    simpa [hd.ne'] using h
  have e2 : ∀ i, (Checks.nullRow null i).1 = decide (∀ j, null i j = true) := by
    intro i
    rw [Bool.eq_iff_iff, (C50_scores null i).1, decide_eq_true_iff]
  unfold nullManager
  refine ⟨rfl, rfl, ?_, ?_, ?_⟩
  · intro f hf i
    rcases List.mem_cons.mp hf with h | h
    · rw [(Prod.mk.inj h).2, ← e2]
    · exact absurd (Prod.mk.inj (List.mem_singleton.mp h)).1 (by decide)
  · intro f hf i
    rcases List.mem_cons.mp hf with h | h
    · exact absurd (Prod.mk.inj h).1 (by decide)
    · rw [(Prod.mk.inj (List.mem_singleton.mp h)).2, ← e]
  · simp only [e]

/-- **C42**, in the tables of Datalab: no example is flagged and every example has score 1; only the score of the data set
tells whether there are identifier columns. -/
theorem C42_table (columns : List Checks.Column) :
    (identifierManager n columns).name = "identifier_column" ∧
    (identifierManager n columns).columns = [("is_identifier_column_issue", fun _ => .bool false),
      ("identifier_column_score", fun _ => .num 1)] := ⟨rfl, rfl⟩

/-! ## What fails -/

/-- **C93** fails: columns that identify the examples are never reported: whatever the check finds, the report is that no
issues were found. -/
theorem C93_not_identifier (A : ArgSort ℚ) (A' : ArgSort ℤ) (registry : String → Option (List (List String)))
    (columns : List Checks.Column) (hid : ∃ c ∈ columns, Checks.isIdentifier c = true) (k v : ℕ) :
    (runHistory [[.ok (identifierManager n columns)]]).summary = [("identifier_column", 0, 0)] ∧
    report A A' registry (runHistory [[.ok (identifierManager n columns)]]) false k v = .ok .noIssues := by
  have hs : (runHistory [[.ok (identifierManager n columns)]]).summary = [("identifier_column", 0, 0)] := by
    have h1 : (runHistory [[.ok (identifierManager n columns)]]).summary =
        [("identifier_column", (identifierManager n columns).score, numIssues (n := n) (fun _ => .bool false))] := rfl
    rw [h1]
    have h2 : (identifierManager n columns).score = 0 := by
      show 1 - (if (columns.map Checks.isIdentifier).any id then (1 : ℚ) else 0) = 0
      rw [if_pos (by
        rw [List.any_eq_true]
        obtain ⟨c, hc, hc'⟩ := hid
        exact ⟨true, List.mem_map.mpr ⟨c, hc, hc'⟩, rfl⟩)]
      norm_num
    rw [h2]
    simp [numIssues, cellTrue]
  refine ⟨hs, ?_⟩
  unfold report
  rw [hs]
  rfl

/-- **C93** fails: missing values are not reported unless some example has only missing values. -/
theorem C93_not_missing (A : ArgSort ℚ) (A' : ArgSort ℤ) (registry : String → Option (List (List String))) {d : ℕ}
    (null : Fin n → Fin d → Bool) (hrow : ∀ i, ∃ j, null i j = false) (k v : ℕ) :
    report A A' registry (runHistory [[.ok (nullManager null)]]) false k v = .ok .noIssues := by
  have h1 : (runHistory [[.ok (nullManager null)]]).summary =
      [("null", (nullManager null).score, numIssues (fun i => .bool (Checks.nullRow null i).1))] := rfl
  have h2 : numIssues (fun i => Cell.bool (Checks.nullRow null i).1) = 0 := by
    unfold numIssues
    rw [Finset.card_eq_zero, Finset.filter_eq_empty_iff]
    intro i _ hc
    have hc : decide (Checks.nonNull null i = 0) = true := hc
    have hc := of_decide_eq_true hc
    unfold Checks.nonNull at hc
    obtain ⟨j, hj⟩ := hrow i
    have : (Finset.univ.filter (fun j => null i j = true)).card < d := by
      have := Finset.card_lt_univ_of_notMem (s := Finset.univ.filter (fun j => null i j = true)) (x := j) (by simp [hj])
      simpa using this
    omega
  rw [h2] at h1
  unfold report
  rw [h1]
  rfl

theorem builtinLevels_iff (t : String) (levels : List (List String)) :
    builtinLevels t = some levels ↔ (t, levels) ∈ [("outlier", [[], [], ["average_ood_score"], []]),
      ("label", [[], [], [], ["classes_by_label_quality", "overlapping_classes"]]), ("near_duplicate", [[], [], ["threshold"]]),
      ("non_iid", [["p-value"], [], []]), ("class_imbalance", [["Rarest Class"], [], []]),
      ("underperforming_group", [[], [], ["threshold"]]), ("null", [[], [], ["most_common_issue"]]),
      ("data_valuation", [[], [], [], ["average_data_valuation"]]), ("identifier_column", [[], ["identifier_columns"], []])] := by
  unfold builtinLevels
  simp only [List.mem_cons, Prod.mk.injEq, List.not_mem_nil, or_false]
  split <;> simp_all [eq_comm]

/-- **C93, built-in checks.** A section of a report about a built-in check shows exactly the information documented for the
levels up to the verbosity, and everything at the verbosity above the last level. -/
theorem C93_builtin (A : ArgSort ℚ) (A' : ArgSort ℤ) (s : State n) (showAll : Bool) (k v : ℕ)
    (rows : List (String × ℚ × ℕ)) (secs : List (Section n))
    (h : report A A' builtinLevels s showAll k v = .ok (.full rows secs)) :
    ∀ sec ∈ secs, ∃ levels issues info, getIssues s (some sec.name) = .ok issues ∧ s.info.lookup sec.name = some info ∧
      (sec.name, levels) ∈ [("outlier", [[], [], ["average_ood_score"], []]),
      ("label", [[], [], [], ["classes_by_label_quality", "overlapping_classes"]]), ("near_duplicate", [[], [], ["threshold"]]),
      ("non_iid", [["p-value"], [], []]), ("class_imbalance", [["Rarest Class"], [], []]),
      ("underperforming_group", [[], [], ["threshold"]]), ("null", [[], [], ["most_common_issue"]]),
      ("data_valuation", [[], [], [], ["average_data_valuation"]]), ("identifier_column", [[], ["identifier_columns"], []])] ∧
      v ≤ levels.length ∧ ∀ key, key ∈ sec.shown ↔ key ∉ issues.map (·.1) ∧
        (key ∈ (levels.take (v + 1)).flatten ∨ v = levels.length ∧ key ∈ info.map (·.1)) := by
  have hsecs : ∃ types : List String, types.mapM (sectionOf A builtinLevels s k v) = .ok secs := by
    refine ⟨issueTypes showAll (sortOn A' (fun r : String × ℚ × ℕ => -(r.2.2 : ℤ)) s.summary), ?_⟩
    unfold report at h
    by_cases h1 : s.summary = []
    · rw [if_pos h1] at h; cases h
    rw [if_neg h1] at h
    by_cases h2 : showAll = false ∧ (s.summary.map (·.2.2)).sum = 0
    · rw [if_pos h2] at h; cases h
    rw [if_neg h2] at h
    revert h
    dsimp only [bind, Except.bind, pure, Except.pure]
    cases (issueTypes showAll (sortOn A' (fun r : String × ℚ × ℕ => -(r.2.2 : ℤ)) s.summary)).mapM
      (sectionOf A builtinLevels s k v) with
    | error e => intro h; cases h
    | ok secs' => intro h; cases h; rfl
  obtain ⟨types, hmap⟩ := hsecs
  intro sec hsec
  obtain ⟨t, _, ht⟩ := mapM_ok_mem _ _ _ hmap sec hsec
  unfold sectionOf at ht
  cases hl : builtinLevels t with
  | none => rw [hl] at ht; cases ht
  | some levels =>
    rw [hl] at ht
    cases hg : getIssues s (some t) with
    | error e => rw [hg] at ht; cases ht
    | ok issues =>
      rw [hg] at ht
      cases hs : getIssueSummary s (some t) with
      | error e => rw [hs] at ht; cases ht
      | ok summary =>
        rw [hs] at ht
        cases hi : s.info.lookup t with
        | none => rw [hi] at ht; cases ht
        | some info =>
          rw [hi] at ht
          have ht : section' A levels t issues summary info k v = .ok sec := ht
          unfold section' at ht
          split_ifs at ht with hv
          split at ht
          · dsimp only at ht
            split_ifs at ht
            cases Except.ok.inj ht
            refine ⟨levels, _, _, hg, hi, (builtinLevels_iff _ _).mp hl, by omega, fun key => ?_⟩
            dsimp only
            unfold infoToPrint
            rw [List.mem_filter, List.mem_append]
            by_cases hv' : v = levels.length <;> simp [hv', and_comm]
          · cases ht

/-- **C93** fails: no verbosity shows all information of the label check once near duplicates are also reported; from 4
on, the level that the label check documents for this, the report raises. -/
theorem C93_not_all_information (A : ArgSort ℚ) (A' : ArgSort ℤ) (s : State n) (showAll : Bool) (k v : ℕ)
    (rows : List (String × ℚ × ℕ)) (secs : List (Section n))
    (h : report A A' builtinLevels s showAll k v = .ok (.full rows secs))
    (hd : ∃ sec ∈ secs, sec.name = "near_duplicate") :
    v ≤ 3 ∧ ∀ sec ∈ secs, sec.name = "label" →
      ∀ key ∈ sec.shown, key = "classes_by_label_quality" ∨ key = "overlapping_classes" := by
  obtain ⟨sec, hsec, hname⟩ := hd
  obtain ⟨levels, _, _, _, _, hl, hv, _⟩ := C93_builtin A A' s showAll k v rows secs h sec hsec
  rw [hname] at hl
  have hl := (builtinLevels_iff _ _).mpr hl
  have hl : levels = [[], [], ["threshold"]] := (Option.some.inj hl).symm
  subst hl
  have hv3 : v ≤ 3 := hv
  refine ⟨hv3, fun sec hsec hname key hkey => ?_⟩
  obtain ⟨levels, columns, keys, _, _, hl, _, hshown⟩ := C93_builtin A A' s showAll k v rows secs h sec hsec
  rw [hname] at hl
  have hl := (builtinLevels_iff _ _).mpr hl
  have hl : levels = [[], [], [], ["classes_by_label_quality", "overlapping_classes"]] := (Option.some.inj hl).symm
  subst hl
  rcases ((hshown key).mp hkey).2 with hkey | ⟨h4, -⟩
  · obtain ⟨l, hl, hl'⟩ := List.mem_flatten.mp hkey
    have := List.mem_of_mem_take hl
    simp only [List.mem_cons, List.not_mem_nil, or_false] at this
    rcases this with rfl | rfl | rfl | rfl
    · cases hl'
    · cases hl'
    · cases hl'
    · simpa using hl'
  · simp at h4
    omega

/-! ## A concrete report -/

/-- A check with two examples, the second of which is flagged. -/
def exManager (name : String) (b : Bool) (info : List (String × String)) : Manager 2 :=
  { name
    columns := [(flagColumn name, fun i => .bool (b && decide (i = 1))), (scoreColumn name, fun i => .num (![1, 1/2] i))]
    score := 3 / 4
    info }

example : ∃ secs, report (stableSort ℚ) (stableSort ℤ) builtinLevels
    (runHistory [[.ok (exManager "outlier" false [("average_ood_score", "")]),
      .ok (exManager "near_duplicate" true [("threshold", "")])]]) false 1 2 =
    .ok (.full [("near_duplicate", 3/4, 1)] secs) ∧ secs.map (fun s => (s.name, s.count, s.score, s.examples, s.shown)) =
      [("near_duplicate", 1, 3/4, [1], ["threshold"])] := ⟨_, rfl, by decide +kernel⟩

end Cleanlab.Props
