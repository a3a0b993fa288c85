import Verif.Props.DatalabChecks

/-!
# C224: a reported group that does even worse
-/

namespace Cleanlab.Props

open Cleanlab.Checks

variable {n : ℕ}

theorem worstStep_eq (perf : ℤ → ℚ) (mean : ℚ) (s : WorstState) (c : ℤ) :
    (worstStep perf mean s c).ratio = (if perf c < mean ∧ perf c < s.ratio then perf c / mean else s.ratio) ∧
      (worstStep perf mean s c).id = if perf c < mean ∧ perf c < s.ratio then c else s.id := by
  unfold worstStep
  by_cases h1 : perf c < mean
  · by_cases h2 : perf c < s.ratio
    · simp [h1, h2]
    · simp [h1, h2]
  · simp [h1]

/-- The cluster that was recorded last. -/
theorem last_recorded (perf : ℤ → ℚ) (mean : ℚ) (s0 : WorstState) (l : List ℤ) :
    ((l.foldl (worstStep perf mean) s0).ratio = s0.ratio ∧ (l.foldl (worstStep perf mean) s0).id = s0.id) ∨
    ∃ pre c post, l = pre ++ c :: post ∧ perf c < mean ∧ perf c < (pre.foldl (worstStep perf mean) s0).ratio ∧
      (l.foldl (worstStep perf mean) s0).id = c ∧ (l.foldl (worstStep perf mean) s0).ratio = perf c / mean ∧
      ∀ d ∈ post, ¬ (perf d < mean ∧ perf d < perf c / mean) := by
  induction l using List.reverseRecOn with
  | nil => exact Or.inl ⟨rfl, rfl⟩
  | append_singleton l x ih =>
    rw [List.foldl_append, List.foldl_cons, List.foldl_nil]
    obtain ⟨e1, e2⟩ := worstStep_eq perf mean (l.foldl (worstStep perf mean) s0) x
    rw [e1, e2]
    by_cases hx : perf x < mean ∧ perf x < (l.foldl (worstStep perf mean) s0).ratio
    · rw [if_pos hx, if_pos hx]
      exact Or.inr ⟨l, x, [], rfl, hx.1, hx.2, rfl, rfl, fun d hd => absurd hd List.not_mem_nil⟩
    · rw [if_neg hx, if_neg hx]
      rcases ih with h | ⟨pre, c, post, h1, h2, h3, h4, h5, h6⟩
      · exact Or.inl h
      · refine Or.inr ⟨pre, c, post ++ [x], by rw [h1]; simp, h2, h3, h4, h5, fun d hd => ?_⟩
        rcases List.mem_append.mp hd with hd | hd
        · exact h6 d hd
        · rw [List.mem_singleton.mp hd, ← h5]
          exact hx

theorem recorded_stays (perf : ℤ → ℚ) (mean : ℚ) (s0 : WorstState) (pre post : List ℤ) (c : ℤ) (h1 : perf c < mean)
    (h2 : perf c < (pre.foldl (worstStep perf mean) s0).ratio) (h3 : ∀ d ∈ post, ¬ (perf d < mean ∧ perf d < perf c / mean)) :
    ((pre ++ c :: post).foldl (worstStep perf mean) s0).id = c ∧
      ((pre ++ c :: post).foldl (worstStep perf mean) s0).ratio = perf c / mean := by
  rw [List.foldl_append, List.foldl_cons]
  obtain ⟨e1, e2⟩ := worstStep_eq perf mean (pre.foldl (worstStep perf mean) s0) c
  rw [if_pos ⟨h1, h2⟩] at e1 e2
  generalize worstStep perf mean (pre.foldl (worstStep perf mean) s0) c = s at e1 e2
  induction post generalizing s with
  | nil => exact ⟨e2, e1⟩
  | cons d post ih =>
    rw [List.foldl_cons]
    obtain ⟨g1, g2⟩ := worstStep_eq perf mean s d
    have hd := h3 d List.mem_cons_self
    rw [e1, if_neg hd] at g1
    rw [e1, if_neg hd, e2] at g2
    exact ih (fun d hd => h3 d (List.mem_cons_of_mem _ hd)) _ g1 g2

/-- The ratio to beat does not become smaller than what the cluster has to beat it with. -/
theorem ratio_before (perf perf' : ℤ → ℚ) (mean mean' : ℚ) (s0 : WorstState) (l : List ℤ) (hsame : ∀ d ∈ l, perf' d = perf d)
    (h0 : ∀ d ∈ l, 0 ≤ perf d) (hm : 0 < mean') (hmm : mean' ≤ mean) (hm1 : mean ≤ 1) :
    (l.foldl (worstStep perf mean) s0).ratio ≤ (l.foldl (worstStep perf' mean') s0).ratio ∨
      (mean' < (l.foldl (worstStep perf' mean') s0).ratio ∧ mean' ≤ (l.foldl (worstStep perf mean) s0).ratio) := by
  induction l using List.reverseRecOn with
  | nil => exact Or.inl le_rfl
  | append_singleton l x ih =>
    have ih := ih (fun d hd => hsame d (List.mem_append_left _ hd)) (fun d hd => h0 d (List.mem_append_left _ hd))
    have hx := hsame x (by simp)
    have hx0 := h0 x (by simp)
    rw [List.foldl_append, List.foldl_cons, List.foldl_nil, List.foldl_append, List.foldl_cons, List.foldl_nil,
      (worstStep_eq perf mean _ x).1, (worstStep_eq perf' mean' _ x).1, hx]
    generalize (l.foldl (worstStep perf mean) s0).ratio = R at *
    generalize (l.foldl (worstStep perf' mean') s0).ratio = R' at *
    generalize perf x = p at *
    have hmpos : 0 < mean := lt_of_lt_of_le hm hmm
    have hdiv : p / mean ≤ p / mean' := div_le_div_of_nonneg_left hx0 hm hmm
    have hle : p ≤ p / mean := by
      rw [le_div_iff₀ hmpos]
      nlinarith
    by_cases ha : p < mean ∧ p < R
    · by_cases hb : p < mean' ∧ p < R'
      · rw [if_pos ha, if_pos hb]
        exact Or.inl hdiv
      · rw [if_pos ha, if_neg hb]
        by_cases hpm : p < mean'
        · have hR' : R' ≤ p := by
            by_contra hc
            exact hb ⟨hpm, not_le.mp hc⟩
          rcases ih with ih | ih
          · linarith [ha.2]
          · linarith [ih.1]
        · refine Or.inr ⟨?_, by linarith [not_lt.mp hpm]⟩
          rcases ih with ih | ih
          · linarith [ha.2, not_lt.mp hpm]
          · exact ih.1
    · by_cases hb : p < mean' ∧ p < R'
      · rw [if_neg ha, if_pos hb]
        have hR : R ≤ p := by
          by_contra hc
          exact ha ⟨lt_of_lt_of_le hb.1 hmm, not_le.mp hc⟩
        exact Or.inl (by linarith)
      · rw [if_neg ha, if_neg hb]
        exact ih

/-- **C224.** If the examples of the group that is reported get lower self-confidences, the same group is reported, and with a
score that is not higher. -/
theorem C224_worse (cluster : Fin n → ℤ) (conf conf' : Fin n → ℚ) (threshold : ℚ) (minSamples : ℕ) (order : List ℤ)
    (hnd : order.Nodup) (h0 : ∀ i, 0 ≤ conf' i) (h1 : ∀ i, conf i ≤ 1) (ht : threshold ≤ 1) (hpos : 0 < minSamples)
    (r : GroupResult n) (h : underperformingFindIssues cluster conf threshold minSamples order = .ok r)
    (hsome : ∃ i, r.isIssue i = true) (hle : ∀ i, r.isIssue i = true → conf' i ≤ conf i)
    (hsame : ∀ i, r.isIssue i = false → conf' i = conf i) :
    ∃ r', underperformingFindIssues cluster conf' threshold minSamples order = .ok r' ∧ r'.isIssue = r.isIssue ∧
      r'.worst = r.worst ∧ r'.summary ≤ r.summary := by
  unfold underperformingFindIssues at h ⊢
  by_cases hneg : ∃ i, cluster i < -1
  · rw [if_pos hneg] at h; cases h
  rw [if_neg hneg] at h ⊢
  dsimp only at h ⊢
  set ids := filterClusterIds cluster minSamples order with hids
  cases hmin : ids.min? with
  | none => rw [hmin] at h; cases h
  | some lo =>
    rw [hmin] at h
    dsimp only at h ⊢
    have h := Except.ok.inj h
    set used := Finset.univ.filter (fun i => cluster i ∈ ids) with hused
    set mean := meanOn conf used with hmean
    set mean' := meanOn conf' used with hmean'
    set s := ids.foldl (worstStep (fun c => meanOn conf (members cluster c)) mean) { scores := [], ratio := 1, id := lo - 1 } with hs
    have hthr : max threshold 0 ≤ 1 := max_le ht zero_le_one
    have hratio : s.ratio < max threshold 0 := by
      by_contra hc
      obtain ⟨i, hi⟩ := hsome
      rw [← h] at hi
      dsimp only at hi
      rw [if_neg hc, decide_eq_true_eq] at hi
      exact hneg ⟨i, by rw [hi]; decide⟩
    have hworst : r.worst = s.id := by rw [← h]; dsimp only; rw [if_pos hratio]
    have hflag : ∀ i, r.isIssue i = decide (cluster i = s.id) := fun i => by rw [← h]; dsimp only; rw [if_pos hratio]
    have hsummary : r.summary = s.ratio := by rw [← h]
    rcases last_recorded (fun c => meanOn conf (members cluster c)) mean { scores := [], ratio := 1, id := lo - 1 } ids with
      hno | ⟨pre, c, post, k1, k2, k3, k4, k5, k6⟩
    · have := hno.1
      rw [← hs] at this
      dsimp only at this
      linarith
    · rw [← hs] at k4 k5
      try dsimp only at k2 k5 k6
      have hidsnd : ids.Nodup := (hnd.filter _).filter _
      rw [k1] at hidsnd
      have hc_notin : ∀ d, d ∈ pre ∨ d ∈ post → d ≠ c := by
        rintro d hd rfl
        rw [List.nodup_append] at hidsnd
        obtain ⟨-, g2, g3⟩ := hidsnd
        rcases hd with hd | hd
        · exact g3 d hd d List.mem_cons_self rfl
        · exact (List.nodup_cons.mp g2).1 hd
      have hall : ∀ i, conf' i ≤ conf i := fun i => by
        cases hi : r.isIssue i with
        | true => exact hle i hi
        | false => exact (hsame i hi).le
      have hother : ∀ i, cluster i ≠ c → conf' i = conf i := fun i hi => hsame i (by
        rw [hflag, k4]
        exact decide_eq_false hi)
      have hperf : ∀ d, d ≠ c → meanOn conf' (members cluster d) = meanOn conf (members cluster d) := fun d hd => by
        unfold meanOn
        rw [Finset.sum_congr rfl (fun i hi => hother i (by
          rw [(Finset.mem_filter.mp hi).2]
          exact hd))]
      have hcmem : c ∈ ids := by rw [k1]; simp
      have hcard : 0 < (members cluster c).card := by
        have := (List.mem_filter.mp hcmem).2
        have := of_decide_eq_true this
        omega
      have hsubset : members cluster c ⊆ used := fun i hi => by
        rw [hused, Finset.mem_filter]
        refine ⟨Finset.mem_univ i, ?_⟩
        rw [(Finset.mem_filter.mp hi).2]
        exact hcmem
      have hcardu : 0 < used.card := lt_of_lt_of_le hcard (Finset.card_le_card hsubset)
      have hq : (0 : ℚ) < (members cluster c).card := by exact_mod_cast hcard
      have hqu : (0 : ℚ) < used.card := by exact_mod_cast hcardu
      -- the sums over the cluster and over the rest
      have hsplit : ∀ f : Fin n → ℚ, ∑ i ∈ used, f i = ∑ i ∈ members cluster c, f i + ∑ i ∈ used \ members cluster c, f i :=
        fun f => by rw [add_comm]; exact (Finset.sum_sdiff hsubset).symm
      have hrest : ∑ i ∈ used \ members cluster c, conf' i = ∑ i ∈ used \ members cluster c, conf i :=
        Finset.sum_congr rfl (fun i hi => hother i (fun hc => (Finset.mem_sdiff.mp hi).2
          (Finset.mem_filter.mpr ⟨Finset.mem_univ i, hc⟩)))
      have hC : ∑ i ∈ members cluster c, conf' i ≤ ∑ i ∈ members cluster c, conf i := Finset.sum_le_sum (fun i _ => hall i)
      have hC0 : 0 ≤ ∑ i ∈ members cluster c, conf' i := Finset.sum_nonneg (fun i _ => h0 i)
      have hO0 : 0 ≤ ∑ i ∈ used \ members cluster c, conf i := Finset.sum_nonneg (fun i _ => (h0 i).trans (hall i))
      have e1 : mean = (∑ i ∈ members cluster c, conf i + ∑ i ∈ used \ members cluster c, conf i) / used.card := by
        rw [hmean, meanOn, hsplit]
      have e2 : mean' = (∑ i ∈ members cluster c, conf' i + ∑ i ∈ used \ members cluster c, conf i) / used.card := by
        rw [hmean', meanOn, hsplit, hrest]
      have e3 : meanOn conf (members cluster c) = (∑ i ∈ members cluster c, conf i) / (members cluster c).card := rfl
      have e4 : meanOn conf' (members cluster c) = (∑ i ∈ members cluster c, conf' i) / (members cluster c).card := rfl
      have hcardle : ((members cluster c).card : ℚ) ≤ used.card := by exact_mod_cast Finset.card_le_card hsubset
      have hm1 : mean ≤ 1 := by
        rw [hmean, meanOn, div_le_one hqu]
        calc ∑ i ∈ used, conf i ≤ ∑ _i ∈ used, (1 : ℚ) := Finset.sum_le_sum (fun i _ => h1 i)
          _ = used.card := by simp
      generalize ∑ i ∈ members cluster c, conf i = C at *
      generalize ∑ i ∈ members cluster c, conf' i = C' at *
      generalize ∑ i ∈ used \ members cluster c, conf i = O at *
      generalize hmc : ((members cluster c).card : ℚ) = m at *
      generalize hNc : (used.card : ℚ) = N at *
      have hk2 : C * N < (C + O) * m := by
        rw [e3, e1, div_lt_div_iff₀ hq hqu] at k2
        exact k2
      have hOpos : 0 < O := by
        by_contra hO
        have hO : O = 0 := le_antisymm (not_lt.mp hO) hO0
        rw [hO, add_zero] at hk2
        have := mul_le_mul_of_nonneg_left hcardle (hC0.trans hC)
        linarith
      have hm' : 0 < mean' := by rw [e2]; exact div_pos (by linarith) hqu
      have hmm : mean' ≤ mean := by
        rw [e1, e2, div_le_div_iff_of_pos_right hqu]
        linarith
      have hk2' : meanOn conf' (members cluster c) < mean' := by
        rw [e4, e2, div_lt_div_iff₀ hq hqu]
        nlinarith
      have hr' : meanOn conf' (members cluster c) / mean' ≤ meanOn conf (members cluster c) / mean := by
        rw [div_le_div_iff₀ hm' (lt_of_lt_of_le hm' hmm), e1, e2, e3, e4]
        rw [div_mul_div_comm, div_mul_div_comm, div_le_div_iff_of_pos_right (mul_pos hq hqu)]
        nlinarith
      have hperf0 : ∀ d, 0 ≤ meanOn conf (members cluster d) := fun d => by
        unfold meanOn
        exact div_nonneg (Finset.sum_nonneg (fun i _ => (h0 i).trans (hall i))) (Nat.cast_nonneg _)
      have hk3' : meanOn conf' (members cluster c) <
          (pre.foldl (worstStep (fun c => meanOn conf' (members cluster c)) mean') { scores := [], ratio := 1, id := lo - 1 }).ratio := by
        rcases ratio_before (fun c => meanOn conf (members cluster c)) (fun c => meanOn conf' (members cluster c)) mean mean'
          { scores := [], ratio := 1, id := lo - 1 } pre (fun d hd => hperf d (hc_notin d (Or.inl hd))) (fun d _ => hperf0 d)
          hm' hmm hm1 with hcase | hcase
        · refine lt_of_lt_of_le (lt_of_le_of_lt ?_ k3) hcase
          rw [e3, e4, div_le_div_iff_of_pos_right hq]
          exact hC
        · exact hk2'.trans hcase.1
      have hfin := recorded_stays (fun c => meanOn conf' (members cluster c)) mean' { scores := [], ratio := 1, id := lo - 1 }
        pre post c hk2' hk3' (fun d hd hbad => by
          rw [hperf d (hc_notin d (Or.inr hd))] at hbad
          exact k6 d hd ⟨lt_of_lt_of_le hbad.1 hmm, lt_of_lt_of_le hbad.2 hr'⟩)
      rw [← k1] at hfin
      have hthr' : (ids.foldl (worstStep (fun c => meanOn conf' (members cluster c)) mean')
          { scores := [], ratio := 1, id := lo - 1 }).ratio < max threshold 0 := by
        rw [hfin.2]
        exact lt_of_le_of_lt hr' (by rw [← k5]; exact hratio)
      refine ⟨_, rfl, funext fun i => ?_, ?_, ?_⟩
      · dsimp only
        rw [if_pos hthr', hfin.1, hflag, k4]
      · dsimp only
        rw [if_pos hthr', hfin.1, hworst, k4]
      · dsimp only
        rw [hfin.2, hsummary, k5]
        exact hr'

/-- The second group is reported, and still is when its only example has no confidence left. -/
example : ∃ r r' : GroupResult 4,
    underperformingFindIssues ![0, 0, 0, 1] ![9 / 10, 9 / 10, 9 / 10, 1 / 20] (1 / 10) 1 [0, 1] = .ok r ∧
    underperformingFindIssues ![0, 0, 0, 1] ![9 / 10, 9 / 10, 9 / 10, 0] (1 / 10) 1 [0, 1] = .ok r' ∧
    r.isIssue = ![false, false, false, true] ∧ r'.isIssue = ![false, false, false, true] := by
  obtain ⟨r, hr⟩ : ∃ r : GroupResult 4,
      underperformingFindIssues ![0, 0, 0, 1] ![9 / 10, 9 / 10, 9 / 10, 1 / 20] (1 / 10) 1 [0, 1] = .ok r ∧
      r.isIssue = ![false, false, false, true] := by
    have h : (underperformingFindIssues (n := 4) ![0, 0, 0, 1] ![9 / 10, 9 / 10, 9 / 10, 1 / 20] (1 / 10) 1 [0, 1]).toOption.map
        (fun r => List.ofFn r.isIssue) = some [false, false, false, true] := by decide +kernel
    cases hc : underperformingFindIssues (n := 4) ![0, 0, 0, 1] ![9 / 10, 9 / 10, 9 / 10, 1 / 20] (1 / 10) 1 [0, 1] with
    | error e => rw [hc] at h; cases h
    | ok r =>
      rw [hc] at h
      have h : List.ofFn r.isIssue = List.ofFn ![false, false, false, true] := Option.some.inj h
      exact ⟨r, rfl, List.ofFn_injective h⟩
  obtain ⟨r', h1, h2, -⟩ := C224_worse ![0, 0, 0, 1] ![9 / 10, 9 / 10, 9 / 10, 1 / 20] ![9 / 10, 9 / 10, 9 / 10, 0] (1 / 10) 1
    [0, 1] (by decide) (by decide +kernel) (by decide +kernel) (by norm_num) (by decide) r hr.1 ⟨3, by rw [hr.2]; rfl⟩
    (by rw [hr.2]; decide +kernel) (by rw [hr.2]; decide +kernel)
  exact ⟨r, r', hr.1, h1, hr.2, by rw [h2, hr.2]⟩

end Cleanlab.Props
