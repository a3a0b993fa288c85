import Verif.Model.MultiannotatorReport
import Verif.Props.Crowdlab
import Verif.Props.RegressionRank
import Verif.Props.Token
import Verif.Props.Baselines
import Verif.Lemmas.Except
import Mathlib.Data.List.Sort

/-!
# C119: the report of `get_label_quality_multiannotator`
-/

namespace Cleanlab.Props

open Np Cleanlab.Util Cleanlab.Rank Cleanlab.Multiannotator Cleanlab.Spec

variable {n M K : ℕ} {F : Type} [Field F] [LinearOrder F]

omit [Field F] [LinearOrder F] in
theorem setColumn_lookup (l : List (String × Column n K F)) (name : String) (c : Column n K F) (x : String) :
    (setColumn l name c).lookup x = if x = name then some c else l.lookup x := by
  unfold setColumn
  by_cases hx : x = name
  · subst hx
    rw [if_pos rfl]
    split_ifs with h
    · induction l with
      | nil => simp at h
      | cons a l ih =>
        by_cases ha : a.1 = x
        · rw [List.map_cons, if_pos ha, List.lookup_cons]; simp
        · rw [List.map_cons, if_neg ha, List.lookup_cons]
          have : (x == a.1) = false := by simpa using fun h => ha h.symm
          rw [this]
          exact ih (by simpa [show ¬ x = a.1 from fun h => ha h.symm] using h)
    · rw [List.lookup_append]
      have : l.lookup x = none := by
        rw [List.lookup_eq_none_iff]
        intro p hp
        simp only [bne_iff_ne, ne_eq]
        rintro rfl
        exact h (List.mem_map_of_mem hp)
      rw [this]; simp
  · rw [if_neg hx]
    have hx' : (x == name) = false := by simpa using hx
    split_ifs with h
    · clear h
      induction l with
      | nil => rfl
      | cons a l ih =>
        by_cases ha : a.1 = name
        · rw [List.map_cons, if_pos ha, List.lookup_cons, hx', ih]
          have : (x == a.1) = false := by rw [ha]; exact hx'
          rw [List.lookup_cons, this]
        · rw [List.map_cons, if_neg ha, List.lookup_cons, List.lookup_cons, ih]
    · rw [List.lookup_append, List.lookup_cons, hx']; simp

variable [NeZero K]

/-- The loop once the main method is done: further methods add their columns and replace the weights. -/
theorem foldl_extra (isInt : Bool) (score : Scorer K F) (o : Options) (L : Annotations n M K) (P : Fin n → Fin K → F)
    (root : F) (mv : Consensus n M K F) : ∀ (ms : List String) (r r' : Report n M K F), r.main.isSome →
      ms.foldlM (step isInt score o L P root mv) r = .ok r' →
      r'.main = r.main ∧ r'.detailed = r.detailed ∧ r'.stats = r.stats ∧ r'.numAnnotations = r.numAnnotations ∧
      (∀ m ∈ ms, ∃ c, methodConsensus isInt score o.quality L P root mv m = .ok c) ∧
      (∀ m c, methodConsensus isInt score o.quality L P root mv m = .ok c → m ∈ ms →
        r'.extra.lookup m = some c.column) ∧
      (∀ m, m ∉ ms → r'.extra.lookup m = r.extra.lookup m) ∧
      (ms = [] → r'.weights = r.weights) ∧
      (∀ m ∈ ms.getLast?, ∀ c, methodConsensus isInt score o.quality L P root mv m = .ok c →
        r'.weights = if o.weights then some c.weights else none) := by
  intro ms
  induction ms with
  | nil =>
    intro r r' _ h
    obtain rfl := Except.ok.inj h
    simp
  | cons m ms ih =>
    intro r r' hm h
    rw [List.foldlM_cons] at h
    unfold step at h
    cases hc : methodConsensus isInt score o.quality L P root mv m with
    | error e => rw [hc] at h; cases h
    | ok c =>
      rw [hc] at h
      obtain ⟨col, hcol⟩ := Option.isSome_iff_exists.mp hm
      dsimp only [bind, Except.bind, pure, Except.pure] at h
      rw [hcol] at h
      dsimp only at h
      obtain ⟨h1, h2, h3, h4, h5, h6, h7, h8, h9⟩ := ih _ r' (by rfl) h
      refine ⟨h1.trans hcol.symm, h2, h3, h4, ?_, ?_, ?_, by simp, ?_⟩
      · intro x hx
        rcases List.mem_cons.mp hx with rfl | hx
        · exact ⟨c, hc⟩
        · exact h5 x hx
      · intro x k hk hx
        by_cases hxs : x ∈ ms
        · exact h6 x k hk hxs
        · obtain rfl : x = m := by simpa [hxs] using hx
          rw [hc] at hk
          obtain rfl := Except.ok.inj hk
          rw [h7 x hxs, setColumn_lookup, if_pos rfl]
      · intro x hx
        rw [List.mem_cons, not_or] at hx
        rw [h7 x hx.2, setColumn_lookup, if_neg hx.1]
      · intro x hx k hk
        cases ms with
        | nil =>
          obtain rfl : m = x := by simpa using hx
          rw [hc] at hk
          obtain rfl := Except.ok.inj hk
          exact h8 rfl
        | cons y ys => exact h9 x (by simpa using hx) k hk

/-- The parts of a successful call. -/
theorem report_parts {isInt : Bool} {score : Scorer K F}
    {cal : Annotations n M K → (Fin n → Fin K → F) → Except String (Fin n → Fin K → F)} {o : Options}
    {L : Annotations n M K} {P : Fin n → Fin K → F} {rand : Fin n → ℕ} {root : F} {r : Report n M K F}
    (h : report isInt score cal o L P rand root = .ok r) (hne : o.methods ≠ []) :
    ¬ (o.weights = true ∧ o.quality ≠ "crowdlab") ∧ assertValidInputs L = .ok () ∧
      ∃ P' l mv, (if o.calibrate then cal L P else .ok P) = .ok P' ∧ majorityVote L (some P') rand = .ok l ∧
        consensusOf isInt score o.quality L P' root l = .ok mv ∧
        o.methods.foldlM (step isInt score o L P' root mv) { numAnnotations := numAnnotations L } = .ok r := by
  unfold report at h
  by_cases hw : o.weights = true ∧ o.quality ≠ "crowdlab"
  · rw [if_pos hw] at h; cases h
  rw [if_neg hw] at h
  refine ⟨hw, ?_⟩
  cases hv : assertValidInputs L with
  | error e => rw [hv] at h; cases h
  | ok u =>
    refine ⟨rfl, ?_⟩
    rw [hv] at h
    dsimp only [bind, Except.bind] at h
    cases hP : (if o.calibrate then cal L P else .ok P : Except String (Fin n → Fin K → F)) with
    | error e => rw [hP] at h; cases h
    | ok P' =>
      rw [hP] at h
      dsimp only at h
      by_cases hm : "best_quality" ∈ o.methods ∨ "majority_vote" ∈ o.methods
      · rw [if_pos hm] at h
        cases hl : majorityVote L (some P') rand with
        | error e => rw [hl] at h; cases h
        | ok l =>
          rw [hl] at h
          dsimp only at h
          cases hc : consensusOf isInt score o.quality L P' root l with
          | error e => rw [hc] at h; cases h
          | ok mv =>
            rw [hc] at h
            exact ⟨P', l, mv, rfl, hl, hc, h⟩
      · rw [if_neg hm] at h
        split at h
        · rename_i he; exact absurd he hne
        · cases h

theorem report_of_parts {isInt : Bool} {score : Scorer K F}
    {cal : Annotations n M K → (Fin n → Fin K → F) → Except String (Fin n → Fin K → F)} {o : Options}
    {L : Annotations n M K} {P : Fin n → Fin K → F} {rand : Fin n → ℕ} {root : F}
    {P' : Fin n → Fin K → F} {l : Fin n → Fin K} {mv : Consensus n M K F}
    (hw : ¬ (o.weights = true ∧ o.quality ≠ "crowdlab")) (hv : assertValidInputs L = .ok ())
    (hP : (if o.calibrate then cal L P else .ok P) = .ok P') (hl : majorityVote L (some P') rand = .ok l)
    (hc : consensusOf isInt score o.quality L P' root l = .ok mv)
    (hm : "best_quality" ∈ o.methods ∨ "majority_vote" ∈ o.methods) :
    report isInt score cal o L P rand root =
      o.methods.foldlM (step isInt score o L P' root mv) { numAnnotations := numAnnotations L } := by
  unfold report
  rw [if_neg hw, hv]
  dsimp only [bind, Except.bind]
  rw [hP]
  dsimp only
  rw [if_pos hm, hl]
  dsimp only
  rw [hc]

/-- A method whose consensus could be computed is one of the two documented ones. -/
theorem method_valid {isInt : Bool} {score : Scorer K F} {quality : String} {L : Annotations n M K}
    {P : Fin n → Fin K → F} {root : F} {mv c : Consensus n M K F} {m : String}
    (h : methodConsensus isInt score quality L P root mv m = .ok c) : m = "best_quality" ∨ m = "majority_vote" := by
  unfold methodConsensus at h
  split_ifs at h with h1 h2
  · exact Or.inr h1
  · exact Or.inl h2

/-- The first method of a successful call. -/
theorem report_cons {isInt : Bool} {score : Scorer K F}
    {cal : Annotations n M K → (Fin n → Fin K → F) → Except String (Fin n → Fin K → F)} {o : Options}
    {L : Annotations n M K} {P : Fin n → Fin K → F} {rand : Fin n → ℕ} {root : F} {r : Report n M K F}
    (h : report isInt score cal o L P rand root = .ok r) {m : String} {ms : List String} (hms : o.methods = m :: ms) :
    ¬ (o.weights = true ∧ o.quality ≠ "crowdlab") ∧ assertValidInputs L = .ok () ∧
      ∃ P' l mv c t, (if o.calibrate then cal L P else .ok P) = .ok P' ∧ majorityVote L (some P') rand = .ok l ∧
        consensusOf isInt score o.quality L P' root l = .ok mv ∧
        methodConsensus isInt score o.quality L P' root mv m = .ok c ∧ tables score o L c = .ok t ∧
        r.numAnnotations = numAnnotations L ∧ r.main = some c.column ∧ r.detailed = t.1 ∧ r.stats = t.2 ∧
        (∀ x ∈ ms, ∃ k, methodConsensus isInt score o.quality L P' root mv x = .ok k) ∧
        (∀ x k, methodConsensus isInt score o.quality L P' root mv x = .ok k → x ∈ ms →
          r.extra.lookup x = some k.column) ∧
        (∀ x, x ∉ ms → r.extra.lookup x = none) ∧
        (∀ x ∈ o.methods.getLast?, ∀ k, methodConsensus isInt score o.quality L P' root mv x = .ok k →
          r.weights = if o.weights then some k.weights else none) := by
  obtain ⟨hw, hv, P', l, mv, hP, hl, hc, hf⟩ := report_parts h (by rw [hms]; simp)
  refine ⟨hw, hv, P', l, mv, ?_⟩
  rw [hms, List.foldlM_cons] at hf
  unfold step at hf
  cases hm : methodConsensus isInt score o.quality L P' root mv m with
  | error e => rw [hm] at hf; cases hf
  | ok c =>
    rw [hm] at hf
    dsimp only [bind, Except.bind, pure, Except.pure] at hf
    cases ht : tables score o L c with
    | error e => rw [ht] at hf; cases hf
    | ok t =>
      rw [ht] at hf
      dsimp only at hf
      obtain ⟨h1, h2, h3, h4, h5, h6, h7, h8, h9⟩ := foldl_extra isInt score o L P' root mv ms _ r (by rfl) hf
      refine ⟨c, t, hP, hl, hc, rfl, ht, h4, h1, h2, h3, h5, h6, fun x hx => h7 x hx, ?_⟩
      intro x hx k hk
      cases ms with
      | nil =>
        obtain rfl : m = x := by simpa [hms] using hx
        rw [hm] at hk
        obtain rfl := Except.ok.inj hk
        exact h8 rfl
      | cons y ys => exact h9 x (by simpa [hms] using hx) k hk

/-- A call with a single method. -/
theorem report_single {isInt : Bool} {score : Scorer K F}
    {cal : Annotations n M K → (Fin n → Fin K → F) → Except String (Fin n → Fin K → F)} {o : Options}
    {L : Annotations n M K} {P : Fin n → Fin K → F} {rand : Fin n → ℕ} {root : F}
    {P' : Fin n → Fin K → F} {l : Fin n → Fin K} {mv : Consensus n M K F}
    (hw : ¬ (o.weights = true ∧ o.quality ≠ "crowdlab")) (hv : assertValidInputs L = .ok ())
    (hP : (if o.calibrate then cal L P else .ok P) = .ok P') (hl : majorityVote L (some P') rand = .ok l)
    (hc : consensusOf isInt score o.quality L P' root l = .ok mv) {m : String} (hms : o.methods = [m])
    {c : Consensus n M K F} (hm : methodConsensus isInt score o.quality L P' root mv m = .ok c)
    {t : Option (Fin M → Fin n → Option F) × Option (List (AnnotatorRow M K F))} (ht : tables score o L c = .ok t) :
    report isInt score cal o L P rand root = .ok
      { numAnnotations := numAnnotations L, main := some c.column, detailed := t.1, stats := t.2,
        weights := if o.weights then some c.weights else none } := by
  rw [report_of_parts hw hv hP hl hc (by rcases method_valid hm with rfl | rfl <;> simp [hms]), hms, List.foldlM_cons]
  unfold step
  rw [hm]
  dsimp only [bind, Except.bind, pure, Except.pure]
  rw [ht]
  rfl

/-- **C119.** A call with several consensus methods gives what separate calls with one of them give (with the same random
choices): the columns without suffix and both tables are those of the first method, and for every further method, and no
other name, there are columns with this name as suffix. -/
theorem C119_columns (isInt : Bool) (score : Scorer K F)
    (cal : Annotations n M K → (Fin n → Fin K → F) → Except String (Fin n → Fin K → F)) (o : Options)
    (L : Annotations n M K) (P : Fin n → Fin K → F) (rand : Fin n → ℕ) (root : F) (r : Report n M K F)
    (h : report isInt score cal o L P rand root = .ok r) (m : String) (ms : List String) (hms : o.methods = m :: ms) :
    (∃ r₁, report isInt score cal { o with methods := [m] } L P rand root = .ok r₁ ∧ r.main = r₁.main ∧ r.main.isSome ∧
      r.detailed = r₁.detailed ∧ r.stats = r₁.stats ∧ r.numAnnotations = r₁.numAnnotations) ∧
    (∀ x ∈ ms, ∃ r₁, report isInt score cal { o with methods := [x], detailed := false, stats := false } L P rand root =
      .ok r₁ ∧ r₁.main.isSome ∧ r.extra.lookup x = r₁.main) ∧
    ∀ x, x ∉ ms → r.extra.lookup x = none := by
  obtain ⟨hw, hv, P', l, mv, c, t, hP, hl, hc, hm, ht, e1, e2, e3, e4, e5, e6, e7, -⟩ := report_cons h hms
  refine ⟨⟨_, report_single (o := { o with methods := [m] }) hw hv hP hl hc rfl hm (t := t) ht, e2, by rw [e2]; rfl, e3, e4, e1⟩,
    fun x hx => ?_, e7⟩
  obtain ⟨k, hk⟩ := e5 x hx
  exact ⟨_, report_single (o := { o with methods := [x], detailed := false, stats := false }) hw hv hP hl hc rfl hk
    (t := (none, none)) rfl, rfl, e6 x k hk hx⟩

/-- **C119 (partial).** The weights that are returned are those of a call with the last method only; with a single method
these are the weights behind the returned scores. -/
theorem C119_weights_partial (isInt : Bool) (score : Scorer K F)
    (cal : Annotations n M K → (Fin n → Fin K → F) → Except String (Fin n → Fin K → F)) (o : Options)
    (L : Annotations n M K) (P : Fin n → Fin K → F) (rand : Fin n → ℕ) (root : F) (r : Report n M K F)
    (h : report isInt score cal o L P rand root = .ok r) (m : String) (ms : List String) (hms : o.methods = ms ++ [m])
    (ho : o.weights = true) :
    ∃ r₁, report isInt score cal { o with methods := [m], detailed := false, stats := false } L P rand root = .ok r₁ ∧
      r.weights = r₁.weights ∧ ∃ w, r.weights = some (some w) := by
  obtain ⟨a, as, hcons⟩ : ∃ a as, o.methods = a :: as := by
    rw [hms]; cases ms <;> exact ⟨_, _, rfl⟩
  obtain ⟨hw, hv, P', l, mv, c, t, hP, hl, hc, hm, ht, e1, e2, e3, e4, e5, e6, e7, e8⟩ := report_cons h hcons
  have hmem : m ∈ o.methods.getLast? := by rw [hms]; simp
  have hk : ∃ k, methodConsensus isInt score o.quality L P' root mv m = .ok k := by
    have : m ∈ o.methods := by rw [hms]; simp
    rw [hcons] at this
    rcases List.mem_cons.mp this with rfl | h'
    · exact ⟨c, hm⟩
    · exact e5 m h'
  obtain ⟨k, hk⟩ := hk
  have hr := e8 m hmem k hk
  rw [ho, if_pos rfl] at hr
  have hq : o.quality = "crowdlab" := by
    by_contra hq; exact hw ⟨ho, hq⟩
  have hkw : ∃ w, k.weights = some w := by
    have key : ∀ c' k', consensusOf isInt score o.quality L P' root c' = .ok k' → ∃ w, k'.weights = some w := by
      intro c' k' hk'
      unfold consensusOf at hk'
      rw [if_pos hq] at hk'
      cases hp : postCrowdlab L c' P' root with
      | error e => simp only [hp] at hk'; cases hk'
      | ok p =>
        simp only [hp, bind, Except.bind] at hk'
        cases hs : score n c' p.post with
        | error e => simp only [hs] at hk'; cases hk'
        | ok q =>
          simp only [hs, pure, Except.pure] at hk'
          obtain rfl := (Except.ok.inj hk').symm
          exact ⟨_, rfl⟩
    unfold methodConsensus at hk
    split_ifs at hk
    · obtain rfl := Except.ok.inj hk
      exact key _ _ hc
    · exact key _ _ hk
  obtain ⟨w, hw'⟩ := hkw
  refine ⟨_, report_single (o := { o with methods := [m], detailed := false, stats := false }) hw hv hP hl hc rfl hk
    (t := (none, none)) rfl, ?_, w, by rw [hr, hw']⟩
  dsimp only
  rw [ho, if_pos rfl, hr]

/-! ### The options that add tables -/

omit [NeZero K] [Field F] [LinearOrder F] in
/-- Looking up the rows in their own order gives back the values. -/
theorem filterMap_lookup_zip (rows : List (Fin n)) (vals : List F) (hlen : rows.length = vals.length) (hnd : rows.Nodup) :
    rows.filterMap (fun i => (rows.zip vals).lookup i) = vals := by
  induction rows generalizing vals with
  | nil => cases vals with
    | nil => rfl
    | cons => simp at hlen
  | cons a rows ih =>
    cases vals with
    | nil => simp at hlen
    | cons v vals =>
      rw [List.zip_cons_cons, List.filterMap_cons, List.lookup_cons]
      simp only [beq_self_eq_true]
      congr 1
      conv_rhs => rw [← ih vals (by simpa using hlen) (List.nodup_cons.mp hnd).2]
      apply List.filterMap_congr
      intro i hi
      have : (i == a) = false := by
        simp only [beq_eq_false_iff_ne, ne_eq]
        rintro rfl
        exact (List.nodup_cons.mp hnd).1 hi
      rw [List.lookup_cons, this]

omit [NeZero K] [Field F] [LinearOrder F] in
/-- The values of a column of the table of scores. -/
theorem filterMap_column (L : Annotations n M K) (m : Fin M) (s : Fin (labelledRows L m).length → F) :
    (List.finRange n).filterMap (fun i => ((labelledRows L m).zip (List.ofFn s)).lookup i) = List.ofFn s := by
  have hlen : (labelledRows L m).length = (List.ofFn s).length := by rw [List.length_ofFn]
  have hnd : (labelledRows L m).Nodup := (List.nodup_finRange n).filter _
  refine Eq.trans ?_ (filterMap_lookup_zip _ _ hlen hnd)
  have hf : ∀ f : Fin n → Option F, (labelledRows L m).filterMap f =
      (List.finRange n).filterMap (fun i => if (L i m).isSome then f i else none) := fun f => List.filterMap_filter
  rw [hf]
  apply List.filterMap_congr
  intro i _
  split_ifs with hi
  · rfl
  · rw [List.lookup_eq_none_iff]
    intro p hp
    simp only [bne_iff_ne, ne_eq]
    rintro rfl
    exact hi (List.mem_filter.mp (List.of_mem_zip (a := p.1) (b := p.2) hp).1).2

omit [NeZero K] in
/-- With the default scores the quality of an annotator does not depend on whether the table of scores was made. -/
theorem lqs_detailed (L : Annotations n M K) (post : Fin n → Fin K → F) (d : Fin M → Fin n → Option F)
    (hd : collect (annotatorColumn defaultScorer L post) = .ok d) (m : Fin M) : lqs L post (some d) m = lqs L post none m := by
  have hm := (collect_ok_iff _ _).mp hd m
  unfold annotatorColumn at hm
  unfold lqs
  cases hs : columnScores defaultScorer L post m with
  | error e => rw [hs] at hm; cases hm
  | ok s =>
    rw [hs] at hm
    dsimp only [bind, Except.bind, pure, Except.pure] at hm ⊢
    rw [← Except.ok.inj hm]
    rw [filterMap_column]

omit [NeZero K] in
theorem annotatorStats_detailed (L : Annotations n M K) (c : Consensus n M K F) (d : Fin M → Fin n → Option F)
    (hd : c.weights = none ∨ collect (annotatorColumn defaultScorer L c.post) = .ok d) :
    annotatorStats L c (some d) = annotatorStats L c none := by
  have : qualityOf L c (some d) = qualityOf L c none := by
    funext m
    unfold qualityOf
    rcases hd with hd | hd
    · rw [hd]
    · rw [lqs_detailed L c.post d hd m]
  unfold annotatorStats annotatorRow
  rw [this]

/-- Without CROWDLAB there are no weights. -/
theorem consensus_weights {isInt : Bool} {score : Scorer K F} {quality : String} {L : Annotations n M K}
    {P : Fin n → Fin K → F} {root : F} {c : Fin n → Fin K} {k : Consensus n M K F} (hq : quality ≠ "crowdlab")
    (h : consensusOf isInt score quality L P root c = .ok k) : k.weights = none := by
  unfold consensusOf at h
  rw [if_neg hq] at h
  by_cases ha : quality = "agreement"
  · rw [if_pos ha] at h
    cases hp : agreementPost (F := F) isInt L with
    | error e => simp only [hp] at h; cases h
    | ok p =>
      simp only [hp, bind, Except.bind, pure, Except.pure] at h
      split_ifs at h
      rw [← Except.ok.inj h]
  · rw [if_neg ha] at h; cases h

theorem method_consensus {isInt : Bool} {score : Scorer K F} {quality : String} {L : Annotations n M K}
    {P : Fin n → Fin K → F} {root : F} {l : Fin n → Fin K} {mv k : Consensus n M K F} {m : String}
    (hc : consensusOf isInt score quality L P root l = .ok mv)
    (h : methodConsensus isInt score quality L P root mv m = .ok k) :
    ∃ c, consensusOf isInt score quality L P root c = .ok k := by
  unfold methodConsensus at h
  split_ifs at h
  · obtain rfl := Except.ok.inj h; exact ⟨_, hc⟩
  · exact ⟨_, h⟩

omit [NeZero K] in
theorem tables_parts {score : Scorer K F} {o : Options} {L : Annotations n M K} {c : Consensus n M K F}
    {t : Option (Fin M → Fin n → Option F) × Option (List (AnnotatorRow M K F))} (h : tables score o L c = .ok t) :
    (if o.detailed then (collect (annotatorColumn score L c.post)).map some else .ok none) = .ok t.1 ∧
      (if o.stats then (annotatorStats L c t.1).map some else .ok none) = .ok t.2 := by
  unfold tables at h
  cases hd : (if o.detailed then (collect (annotatorColumn score L c.post)).map some else .ok none :
      Except String (Option (Fin M → Fin n → Option F))) with
  | error e => rw [hd] at h; cases h
  | ok d =>
    rw [hd] at h
    dsimp only [bind, Except.bind] at h
    cases hs : (if o.stats then (annotatorStats L c d).map some else .ok none :
        Except String (Option (List (AnnotatorRow M K F)))) with
    | error e => rw [hs] at h; cases h
    | ok s =>
      rw [hs] at h
      obtain rfl := (Except.ok.inj h).symm
      exact ⟨rfl, hs⟩

/-- **C119 (partial).** What is asked for does not change the rest: two calls that differ only in the tables and weights
they ask for have the same consensus columns, the same table of scores if both have one, and the same table of
annotators if both have one and the scores are computed in the default way (or both calls ask for the table of scores, or
neither does, or the quality is the agreement). -/
theorem C119_flags_partial (isInt : Bool) (score : Scorer K F)
    (cal : Annotations n M K → (Fin n → Fin K → F) → Except String (Fin n → Fin K → F)) (o₁ o₂ : Options)
    (L : Annotations n M K) (P : Fin n → Fin K → F) (rand : Fin n → ℕ) (root : F) (r₁ r₂ : Report n M K F)
    (h₁ : report isInt score cal o₁ L P rand root = .ok r₁) (h₂ : report isInt score cal o₂ L P rand root = .ok r₂)
    (hne : o₁.methods ≠ []) (hm : o₁.methods = o₂.methods) (hq : o₁.quality = o₂.quality)
    (hcal : o₁.calibrate = o₂.calibrate) :
    r₁.main = r₂.main ∧ (∀ x, r₁.extra.lookup x = r₂.extra.lookup x) ∧ r₁.numAnnotations = r₂.numAnnotations ∧
      (o₁.detailed = o₂.detailed → r₁.detailed = r₂.detailed) ∧
      (o₁.stats = o₂.stats → (score = defaultScorer ∨ o₁.detailed = o₂.detailed ∨ o₁.quality ≠ "crowdlab") →
        r₁.stats = r₂.stats) ∧
      (r₁.detailed.isSome ↔ o₁.detailed = true) ∧ (r₁.stats.isSome ↔ o₁.stats = true) ∧
      (r₁.weights.isSome ↔ o₁.weights = true) := by
  obtain ⟨m, ms, hms⟩ : ∃ m ms, o₁.methods = m :: ms := by
    cases hh : o₁.methods with
    | nil => exact absurd hh hne
    | cons m ms => exact ⟨m, ms, rfl⟩
  obtain ⟨hw, hv, P', l, mv, c, t, hP, hl, hc, hmc, ht, e1, e2, e3, e4, e5, e6, e7, e8⟩ := report_cons h₁ hms
  obtain ⟨-, -, P₂, l₂, mv₂, c₂, t₂, hP₂, hl₂, hc₂, hmc₂, ht₂, f1, f2, f3, f4, f5, f6, f7, -⟩ :=
    report_cons h₂ (hm ▸ hms)
  rw [hcal, hP₂] at hP
  obtain rfl := Except.ok.inj hP
  rw [hl₂] at hl
  obtain rfl := Except.ok.inj hl
  rw [hq, hc₂] at hc
  obtain rfl := Except.ok.inj hc
  rw [hq, hmc₂] at hmc
  obtain rfl := Except.ok.inj hmc
  obtain ⟨a1, a2⟩ := tables_parts ht
  obtain ⟨b1, b2⟩ := tables_parts ht₂
  refine ⟨e2.trans f2.symm, fun x => ?_, e1.trans f1.symm, fun h => ?_, fun hs hd => ?_, ?_, ?_, ?_⟩
  · by_cases hx : x ∈ ms
    · obtain ⟨k, hk⟩ := f5 x hx
      rw [f6 x k hk hx, e6 x k (hq ▸ hk) hx]
    · rw [e7 x hx, f7 x hx]
  · rw [e3, f3]
    rw [h, b1] at a1
    exact (Except.ok.inj a1).symm
  · rw [e4, f4]
    rw [hs] at a2
    by_cases hss : o₂.stats = true
    · rw [if_pos hss] at a2 b2
      have hwt : o₁.quality ≠ "crowdlab" → c₂.weights = none := by
        intro hqq
        obtain ⟨c', hc'⟩ := method_consensus hc₂ hmc₂
        exact consensus_weights (hq ▸ hqq) hc'
      have key : annotatorStats L c₂ t.1 = annotatorStats L c₂ t₂.1 := by
        have hnone : ∀ {o : Options} {d : Option (Fin M → Fin n → Option F)},
            (if o.detailed then (collect (annotatorColumn score L c₂.post)).map some else .ok none) = .ok d →
            (score = defaultScorer ∨ o₁.quality ≠ "crowdlab") → annotatorStats L c₂ d = annotatorStats L c₂ none := by
          intro o d hd hor
          split_ifs at hd with ho
          · cases hcol : collect (annotatorColumn score L c₂.post) with
            | error e => rw [hcol] at hd; cases hd
            | ok dd =>
              rw [hcol] at hd
              obtain rfl := Except.ok.inj hd
              refine annotatorStats_detailed L c₂ dd ?_
              rcases hor with rfl | hqq
              · exact Or.inr hcol
              · exact Or.inl (hwt hqq)
          · obtain rfl := Except.ok.inj hd; rfl
        rcases hd with hd | hd | hd
        · rw [hnone a1 (Or.inl hd), hnone b1 (Or.inl hd)]
        · rw [hd, b1] at a1
          rw [Except.ok.inj a1]
        · rw [hnone a1 (Or.inr hd), hnone b1 (Or.inr hd)]
      rw [key, b2] at a2
      exact (Except.ok.inj a2).symm
    · rw [if_neg hss] at a2 b2
      rw [← Except.ok.inj a2, ← Except.ok.inj b2]
  · rw [e3]
    by_cases hd : o₁.detailed = true
    · rw [if_pos hd] at a1
      cases hcol : collect (annotatorColumn score L c₂.post) with
      | error e => rw [hcol] at a1; cases a1
      | ok dd =>
        rw [hcol] at a1
        rw [← Except.ok.inj a1]
        simp [hd]
    · rw [if_neg hd] at a1
      rw [← Except.ok.inj a1]
      simp [hd]
  · rw [e4]
    by_cases hd : o₁.stats = true
    · rw [if_pos hd] at a2
      cases hcol : annotatorStats L c₂ t.1 with
      | error e => rw [hcol] at a2; cases a2
      | ok dd =>
        rw [hcol] at a2
        rw [← Except.ok.inj a2]
        simp [hd]
    · rw [if_neg hd] at a2
      rw [← Except.ok.inj a2]
      simp [hd]
  · obtain ⟨x, hx⟩ : ∃ x, o₁.methods.getLast? = some x := by
      rw [hms]; exact ⟨_, List.getLast?_cons⟩
    have hk : ∃ k, methodConsensus isInt score o₁.quality L P₂ root mv₂ x = .ok k := by
      have : x ∈ o₁.methods := List.mem_of_getLast? hx
      rw [hms] at this
      rcases List.mem_cons.mp this with rfl | h'
      · exact ⟨_, hq ▸ hmc₂⟩
      · exact e5 x h'
    obtain ⟨k, hk⟩ := hk
    rw [e8 x hx k hk]
    split_ifs with ho <;> simp [ho]

/-! ### The table of annotators -/

theorem stats_of_report {isInt : Bool} {score : Scorer K F}
    {cal : Annotations n M K → (Fin n → Fin K → F) → Except String (Fin n → Fin K → F)} {o : Options}
    {L : Annotations n M K} {P : Fin n → Fin K → F} {rand : Fin n → ℕ} {root : F} {r : Report n M K F}
    (h : report isInt score cal o L P rand root = .ok r) {rows : List (AnnotatorRow M K F)} (hs : r.stats = some rows) :
    assertValidInputs L = .ok () ∧ ∃ P' c k, (if o.calibrate then cal L P else .ok P) = .ok P' ∧
      consensusOf isInt score o.quality L P' root c = .ok k ∧ r.main = some k.column ∧
      (∀ d, r.detailed = some d → collect (annotatorColumn score L k.post) = .ok d) ∧
      annotatorStats L k r.detailed = .ok rows := by
  cases hm : o.methods with
  | nil =>
    exfalso
    unfold report at h
    rw [hm] at h
    by_cases hw : o.weights = true ∧ o.quality ≠ "crowdlab"
    · rw [if_pos hw] at h; cases h
    rw [if_neg hw] at h
    cases hv : assertValidInputs L with
    | error e => rw [hv] at h; cases h
    | ok u =>
      rw [hv] at h
      dsimp only [bind, Except.bind] at h
      cases hP : (if o.calibrate then cal L P else .ok P : Except String (Fin n → Fin K → F)) with
      | error e => rw [hP] at h; cases h
      | ok P' =>
        rw [hP] at h
        dsimp only at h
        rw [if_neg (by simp)] at h
        split_ifs at h
        rw [← Except.ok.inj h] at hs
        cases hs
  | cons m ms =>
    obtain ⟨-, hv, P', l, mv, c, t, hP, hl, hc, hmc, ht, -, e2, e3, e4, -⟩ := report_cons h hm
    obtain ⟨c', hc'⟩ := method_consensus hc hmc
    obtain ⟨a1, a2⟩ := tables_parts ht
    refine ⟨hv, P', c', c, hP, hc', e2, ?_, ?_⟩
    · intro d hd
      rw [e3] at hd
      rw [hd] at a1
      split_ifs at a1
      · cases hcol : collect (annotatorColumn score L c.post) with
        | error e => rw [hcol] at a1; cases a1
        | ok dd =>
          rw [hcol] at a1
          rw [Option.some.inj (Except.ok.inj a1)]
      · cases a1
    · rw [e4] at hs
      rw [hs] at a2
      rw [e3]
      split_ifs at a2
      · cases hst : annotatorStats L c t.1 with
        | error e => rw [hst] at a2; cases a2
        | ok dd =>
          rw [hst] at a2
          rw [Option.some.inj (Except.ok.inj a2)]
      · cases a2

omit [NeZero K] in
theorem annotatorStats_parts {L : Annotations n M K} {c : Consensus n M K F} {d : Option (Fin M → Fin n → Option F)}
    {rows : List (AnnotatorRow M K F)} (h : annotatorStats L c d = .ok rows) :
    ∃ f : Fin M → AnnotatorRow M K F, rows = ((List.finRange M).map f).insertionSort (fun a b => a.key ≤ b.key) ∧
      ∀ m, (f m).annotator = m ∧ qualityOf L c d m = .ok (f m).quality ∧ (f m).agreement = statsAgreement L c.label m ∧
        worstClass L c.label c.quality m = some (f m).worst ∧
        (f m).numLabeled = (List.finRange n).countP (fun i => (L i m).isSome) := by
  unfold annotatorStats at h
  have key : ∀ m, ∃ x, annotatorRow L c d m = .ok x ∧ x.annotator = m ∧ qualityOf L c d m = .ok x.quality ∧
      x.agreement = statsAgreement L c.label m ∧ worstClass L c.label c.quality m = some x.worst ∧
      x.numLabeled = (List.finRange n).countP (fun i => (L i m).isSome) := by
    intro m
    cases hr : (List.finRange M).mapM (annotatorRow L c d) with
    | error e => rw [hr] at h; cases h
    | ok l =>
      obtain ⟨x, hx⟩ := mapM_ok_of_mem _ _ _ hr m (List.mem_finRange m)
      refine ⟨x, hx, ?_⟩
      unfold annotatorRow at hx
      cases hq : qualityOf L c d m with
      | error e => rw [hq] at hx; cases hx
      | ok q =>
        rw [hq] at hx
        dsimp only [bind, Except.bind] at hx
        cases hw : worstClass L c.label c.quality m with
        | none => rw [hw] at hx; cases hx
        | some w =>
          rw [hw] at hx
          rw [← Except.ok.inj hx]
          exact ⟨rfl, rfl, rfl, rfl, rfl⟩
  choose f hf1 hf2 using key
  rw [mapM_eq_map _ _ f (fun m _ => hf1 m)] at h
  exact ⟨f, (Except.ok.inj h).symm, hf2⟩

/-- `a` is a number not above `b`, or `b` is missing. -/
def NotAbove (a b : Option F) : Prop := ∀ y, b = some y → ∃ x, a = some x ∧ x ≤ y

omit [NeZero K] [Field F] in
theorem notAbove_iff (a b : Option F) : nanLast a ≤ nanLast b ↔ NotAbove a b := by
  unfold NotAbove
  cases b with
  | none => simp [nanLast]
  | some y => cases a with
    | none => simp [nanLast]
    | some x => simp [nanLast, WithTop.coe_le_coe]

/-- **C119.** The table of annotators has one row per annotator, sorted by quality, then by agreement with the consensus;
unknown values are last. A row has the number of examples the annotator labelled and the fraction of them for which the
label is the consensus label. -/
theorem C119_annotators (isInt : Bool) (score : Scorer K F)
    (cal : Annotations n M K → (Fin n → Fin K → F) → Except String (Fin n → Fin K → F)) (o : Options)
    (L : Annotations n M K) (P : Fin n → Fin K → F) (rand : Fin n → ℕ) (root : F) (r : Report n M K F)
    (h : report isInt score cal o L P rand root = .ok r) (rows : List (AnnotatorRow M K F)) (hs : r.stats = some rows) :
    (rows.map (·.annotator)).Perm (List.finRange M) ∧
      rows.Pairwise (fun a b => NotAbove a.quality b.quality ∧
        (a.quality = b.quality → NotAbove a.agreement b.agreement)) ∧
      ∃ c, r.main = some c ∧ ∀ a ∈ rows, a.numLabeled = numLabelled L a.annotator ∧
        a.agreement = some ((numAgreeing L c.label a.annotator : F) / numLabelled L a.annotator) := by
  obtain ⟨hv, P', c', k, -, -, hmain, -, hst⟩ := stats_of_report h hs
  obtain ⟨f, rfl, hf⟩ := annotatorStats_parts hst
  refine ⟨?_, ?_, k.column, hmain, ?_⟩
  · refine ((List.perm_insertionSort _ _).map _).trans (List.Perm.of_eq ?_)
    rw [List.map_map]
    conv_rhs => rw [← List.map_id (List.finRange M)]
    exact List.map_congr_left (fun m _ => (hf m).1)
  · have hsort := List.pairwise_insertionSort (r := fun a b : AnnotatorRow M K F => a.key ≤ b.key) ((List.finRange M).map f)
    refine hsort.imp ?_
    intro a b hab
    have := Prod.Lex.toLex_le_toLex.mp hab
    constructor
    · rw [← notAbove_iff]
      rcases this with h1 | ⟨h1, -⟩
      · exact h1.le
      · exact h1.le
    · intro he
      rw [← notAbove_iff]
      rcases this with h1 | ⟨-, h2⟩
      · rw [he] at h1; exact absurd h1 (lt_irrefl _)
      · exact h2
  · intro a ha
    obtain ⟨m, -, rfl⟩ := List.mem_map.mp ((List.perm_insertionSort _ _).mem_iff.mp ha)
    obtain ⟨e1, -, e3, -, e5⟩ := hf m
    rw [e1]
    constructor
    · rw [e5, countP_finRange, filter_isSome]; rfl
    · rw [e3]
      exact C21_stats_agreement L k.label m (((assertValidInputs_iff L).mp hv).2.1 m)

/-! ### Ranges -/

section
variable [IsStrictOrderedRing F]

omit [NeZero K] in
theorem meanOf_range (xs : List F) (hx : ∀ x ∈ xs, 0 ≤ x ∧ x ≤ 1) (a : F) (h : meanOf xs = some a) : 0 ≤ a ∧ a ≤ 1 := by
  unfold meanOf at h
  split_ifs at h with h0
  obtain rfl := Option.some.inj h
  have hpos : (0 : F) < xs.length := by exact_mod_cast Nat.pos_of_ne_zero h0
  constructor
  · exact div_nonneg (List.sum_nonneg (fun x hx' => (hx x hx').1)) hpos.le
  · rw [div_le_one hpos]
    have := List.sum_le_card_nsmul xs 1 (fun x hx' => (hx x hx').2)
    simpa using this

/-- Scores between 0 and 1. -/
def UnitScorer (score : Scorer K F) : Prop := ∀ r labels P s, score r labels P = .ok s → ∀ i, 0 ≤ s i ∧ s i ≤ 1

omit [NeZero K] [IsStrictOrderedRing F] in
theorem unitScorer_default : UnitScorer (defaultScorer : Scorer K F) := by
  intro r labels P s h i
  unfold defaultScorer scorer at h
  by_cases hp : ∀ i k, 0 ≤ P i k ∧ P i k ≤ 1
  · rw [if_pos hp] at h
    dsimp only [labelQualityScores] at h
    rw [← Except.ok.inj h]
    exact hp i (labels i)
  · rw [if_neg hp] at h; cases h

omit [NeZero K] [IsStrictOrderedRing F] in
theorem column_range (score : Scorer K F) (hs : UnitScorer score) (L : Annotations n M K) (post : Fin n → Fin K → F)
    (m : Fin M) (g : Fin n → Option F) (h : annotatorColumn score L post m = .ok g) (i : Fin n) :
    (∀ x, g i = some x → 0 ≤ x ∧ x ≤ 1) ∧ (g i = none ↔ L i m = none) := by
  unfold annotatorColumn at h
  cases hc : columnScores score L post m with
  | error e => rw [hc] at h; cases h
  | ok s =>
    rw [hc] at h
    rw [← Except.ok.inj h]
    have hlen : (labelledRows L m).length = (List.ofFn s).length := by rw [List.length_ofFn]
    constructor
    · intro x hx
      have hx' : (i, x) ∈ (labelledRows L m).zip (List.ofFn s) := by
        obtain ⟨l₁, l₂, hl, -⟩ := List.lookup_eq_some_iff.mp hx
        rw [hl]; simp
      obtain ⟨j, rfl⟩ := (List.mem_ofFn' s x).mp (List.of_mem_zip hx').2
      exact hs _ _ _ _ hc j
    · show List.lookup i _ = none ↔ _
      rw [List.lookup_eq_none_iff]
      constructor
      · intro hn
        by_contra hne
        have hmem : i ∈ labelledRows L m := List.mem_filter.mpr ⟨List.mem_finRange i, Option.isSome_iff_ne_none.mpr hne⟩
        rw [← List.map_fst_zip (l₂ := List.ofFn s) hlen.le] at hmem
        obtain ⟨p, hp, rfl⟩ := List.mem_map.mp hmem
        simpa using hn p hp
      · intro hn p hp
        simp only [bne_iff_ne, ne_eq]
        rintro rfl
        have := (List.mem_filter.mp (List.of_mem_zip (a := p.1) (b := p.2) hp).1).2
        rw [hn] at this; cases this

omit [NeZero K] in
theorem lqs_range (score : Scorer K F) (hs : UnitScorer score) (L : Annotations n M K) (post : Fin n → Fin K → F)
    (d : Option (Fin M → Fin n → Option F)) (hd : ∀ g, d = some g → collect (annotatorColumn score L post) = .ok g)
    (m : Fin M) (hm : ∃ i, L i m ≠ none) (q : Option F) (h : lqs L post d m = .ok q) :
    ∃ x, q = some x ∧ 0 ≤ x ∧ x ≤ 1 := by
  obtain ⟨i₀, hi₀⟩ := hm
  have hmean : ∀ xs : List F, xs ≠ [] → (∀ x ∈ xs, 0 ≤ x ∧ x ≤ 1) → ∃ x, meanOf xs = some x ∧ 0 ≤ x ∧ x ≤ 1 := by
    intro xs hne hx
    have : meanOf xs = some (xs.sum / xs.length) := by
      unfold meanOf; rw [if_neg (by simpa using hne)]
    exact ⟨_, this, meanOf_range xs hx _ this⟩
  have hrow : i₀ ∈ labelledRows L m := List.mem_filter.mpr ⟨List.mem_finRange i₀, Option.isSome_iff_ne_none.mpr hi₀⟩
  cases d with
  | none =>
    unfold lqs at h
    cases hc : columnScores defaultScorer L post m with
    | error e => rw [hc] at h; cases h
    | ok s =>
      rw [hc] at h
      rw [← Except.ok.inj h]
      apply hmean
      · intro h0
        have : (List.ofFn s).length = 0 := by rw [h0]; rfl
        rw [List.length_ofFn] at this
        rw [List.length_eq_zero_iff.mp this] at hrow
        cases hrow
      · intro x hx
        obtain ⟨j, rfl⟩ := (List.mem_ofFn' s x).mp hx
        exact unitScorer_default _ _ _ _ hc j
  | some g =>
    have hg := (collect_ok_iff _ _).mp (hd g rfl) m
    have hcol := column_range score hs L post m (g m) hg
    unfold lqs at h
    rw [← Except.ok.inj h]
    apply hmean
    · intro h0
      have : g m i₀ = none := by
        by_contra hne
        obtain ⟨x, hx⟩ := Option.ne_none_iff_exists'.mp hne
        have hmem : x ∈ (List.finRange n).filterMap (g m) := List.mem_filterMap.mpr ⟨i₀, List.mem_finRange _, hx⟩
        rw [h0] at hmem; cases hmem
      exact hi₀ ((hcol i₀).2.mp this)
    · intro x hx
      obtain ⟨i, -, hi⟩ := List.mem_filterMap.mp hx
      exact (hcol i).1 x hi

omit [NeZero K] [LinearOrder F] [IsStrictOrderedRing F] in
theorem agreementOnMulti_none (L : Annotations n M K) (c : Fin n → Fin K) (m : Fin M) :
    agreementOnMulti (F := F) L c m = none ↔ ∀ i, L i m ≠ none → numAnnotators L i = 1 := by
  unfold agreementOnMulti
  dsimp only
  split_ifs with h0
  · refine iff_of_true rfl (fun i hi => ?_)
    by_contra hne
    have : i ∈ (multiRows L).filter (fun i => (L i m).isSome) := by
      refine List.mem_filter.mpr ⟨?_, Option.isSome_iff_ne_none.mpr hi⟩
      unfold multiRows
      refine List.mem_filter.mpr ⟨List.mem_finRange i, ?_⟩
      simpa [numAnnotations_eq] using hne
    rw [List.length_eq_zero_iff.mp h0] at this
    cases this
  · refine iff_of_false (by simp) (fun h => ?_)
    obtain ⟨i, hi⟩ := List.exists_mem_of_length_pos (Nat.pos_of_ne_zero h0)
    obtain ⟨h1, h2⟩ := List.mem_filter.mp hi
    have h3 := (List.mem_filter.mp h1).2
    have := h i (Option.isSome_iff_ne_none.mp h2)
    simp [numAnnotations_eq, this] at h3

omit [NeZero K] in
theorem agreementOnMulti_range (L : Annotations n M K) (c : Fin n → Fin K) (m : Fin M) (a : F)
    (h : agreementOnMulti L c m = some a) : 0 ≤ a ∧ a ≤ 1 := by
  unfold agreementOnMulti at h
  dsimp only at h
  split_ifs at h with h0
  obtain rfl := Option.some.inj h
  refine ⟨by positivity, ?_⟩
  refine div_le_one_of_le₀ ?_ (by positivity)
  exact_mod_cast List.countP_le_length

/-- The consensus of one method: qualities between 0 and 1, and the weights are positive. -/
theorem consensus_range (isInt : Bool) (score : Scorer K F) (hs : UnitScorer score) (quality : String)
    (L : Annotations n M K) (P : Fin n → Fin K → F) (root : F) (hv : ValidAnnotations L) (hP : ∀ i, IsDistribution (P i))
    (hroot0 : 0 ≤ root) (hroot : root * root = (∑ i, (numAnnotators L i : F)) / n) (c : Fin n → Fin K)
    (k : Consensus n M K F) (h : consensusOf isInt score quality L P root c = .ok k) :
    (∀ i, 0 ≤ k.quality i ∧ k.quality i ≤ 1) ∧
      ∀ mw aw, k.weights = some (mw, aw) → 0 < mw ∧ ∀ m, 0 < aw m ∧ aw m ≤ 1 := by
  unfold consensusOf at h
  by_cases h1 : quality = "crowdlab"
  · rw [if_pos h1] at h
    obtain ⟨p, hp, -, hmw, haw⟩ := C20_posterior_is_distribution L c P root hv hP hroot0 hroot
    rw [hp] at h
    dsimp only [bind, Except.bind] at h
    cases hq : score n c p.post with
    | error e => rw [hq] at h; cases h
    | ok q =>
      rw [hq] at h
      rw [← Except.ok.inj h]
      refine ⟨hs _ _ _ _ hq, ?_⟩
      intro mw aw hw
      obtain ⟨rfl, rfl⟩ := Prod.mk.inj (Option.some.inj hw)
      exact ⟨hmw, haw⟩
  · rw [if_neg h1] at h
    by_cases h2 : quality = "agreement"
    · rw [if_pos h2] at h
      cases hp : agreementPost (F := F) isInt L with
      | error e => rw [hp] at h; cases h
      | ok p =>
        rw [hp] at h
        dsimp only [bind, Except.bind] at h
        split_ifs at h with ha
        rw [← Except.ok.inj h]
        refine ⟨fun i => ?_, fun mw aw hw => by cases hw⟩
        obtain ⟨a, ha', -, h01⟩ := C21_example_agreement (F := F) L c i (hv.1 i)
        simp only [ha', Option.get_some]
        exact h01
    · rw [if_neg h2] at h; cases h

omit [NeZero K] in
theorem qualityOf_range (score : Scorer K F) (hs : UnitScorer score) (L : Annotations n M K) (k : Consensus n M K F)
    (d : Option (Fin M → Fin n → Option F)) (hd : ∀ g, d = some g → collect (annotatorColumn score L k.post) = .ok g)
    (hw : ∀ mw aw, k.weights = some (mw, aw) → 0 < mw ∧ ∀ m, 0 < aw m ∧ aw m ≤ 1) (m : Fin M) (hm : ∃ i, L i m ≠ none)
    (q : Option F) (h : qualityOf L k d m = .ok q) :
    (∀ x, q = some x → 0 ≤ x ∧ x ≤ 1) ∧ (q = none ↔ ∀ i, L i m ≠ none → numAnnotators L i = 1) := by
  unfold qualityOf at h
  cases hk : k.weights with
  | none =>
    rw [hk] at h
    dsimp only at h
    rw [← Except.ok.inj h]
    exact ⟨fun x hx => agreementOnMulti_range L _ m x hx, agreementOnMulti_none L _ m⟩
  | some w =>
    obtain ⟨mw, aw⟩ := w
    obtain ⟨hmw, haw⟩ := hw mw aw hk
    rw [hk] at h
    dsimp only at h
    cases hl : lqs L k.post d m with
    | error e => rw [hl] at h; cases h
    | ok l =>
      obtain ⟨x, rfl, hx⟩ := lqs_range score hs L k.post d hd m hm l hl
      rw [hl] at h
      have h := Except.ok.inj h
      rw [← h]
      dsimp only [Option.bind]
      have hadj : 0 ≤ (∑ m, aw m) * (((∑ i, (numAnnotations L i : F)) / n) / M) :=
        mul_nonneg (Finset.sum_nonneg (fun m _ => (haw m).1.le)) (by positivity)
      generalize (∑ m, aw m) * (((∑ i, (numAnnotations L i : F)) / n) / M) = adj at hadj
      have hw0 : 0 ≤ mw / (mw + adj) := by positivity
      have hw1 : mw / (mw + adj) ≤ 1 := div_le_one_of_le₀ (by linarith) (by positivity)
      generalize mw / (mw + adj) = w at hw0 hw1
      constructor
      · intro y hy
        obtain ⟨a, ha, rfl⟩ := Option.map_eq_some_iff.mp hy
        obtain ⟨a0, a1⟩ := agreementOnMulti_range L _ m a ha
        constructor
        · nlinarith [hx.1, mul_nonneg hw0 hx.1, mul_nonneg (sub_nonneg.mpr hw1) a0]
        · nlinarith [mul_le_mul_of_nonneg_left hx.2 hw0, mul_le_mul_of_nonneg_left a1 (sub_nonneg.mpr hw1)]
      · rw [Option.map_eq_none_iff]
        exact agreementOnMulti_none L _ m

/-- **C119.** When the predicted probabilities are distributions and the scores lie between 0 and 1, every number of the
report lies between 0 and 1. The table of scores has a score for exactly the labels that were given. The quality of an
annotator is unknown exactly when all examples they labelled have no other label. -/
theorem C119_range (isInt : Bool) (score : Scorer K F) (hs : UnitScorer score)
    (cal : Annotations n M K → (Fin n → Fin K → F) → Except String (Fin n → Fin K → F)) (o : Options)
    (L : Annotations n M K) (P : Fin n → Fin K → F) (rand : Fin n → ℕ) (root : F) (r : Report n M K F)
    (hP : ∀ P', (if o.calibrate then cal L P else .ok P) = .ok P' → ∀ i, IsDistribution (P' i)) (hroot0 : 0 ≤ root)
    (hroot : root * root = (∑ i, (numAnnotators L i : F)) / n) (hne : o.methods ≠ [])
    (h : report isInt score cal o L P rand root = .ok r) :
    (∃ c, r.main = some c ∧ ∀ i, 0 ≤ c.quality i ∧ c.quality i ≤ 1) ∧
      (∀ d, r.detailed = some d → ∀ m i, (∀ x, d m i = some x → 0 ≤ x ∧ x ≤ 1) ∧ (d m i = none ↔ L i m = none)) ∧
      ∀ rows, r.stats = some rows → ∀ a ∈ rows, (∀ x, a.quality = some x → 0 ≤ x ∧ x ≤ 1) ∧
        (a.quality = none ↔ ∀ i, L i a.annotator ≠ none → numAnnotators L i = 1) := by
  obtain ⟨m, ms, hms⟩ := List.exists_cons_of_ne_nil hne
  obtain ⟨-, hv, P', l, mv, c, t, hP', -, hc, hmc, ht, -, e2, e3, e4, -⟩ := report_cons h hms
  have hv' := (assertValidInputs_iff L).mp hv
  obtain ⟨c', hc'⟩ := method_consensus hc hmc
  obtain ⟨q1, q2⟩ := consensus_range isInt score hs o.quality L P' root hv' (hP P' hP') hroot0 hroot c' c hc'
  obtain ⟨a1, a2⟩ := tables_parts ht
  have hd : ∀ g, t.1 = some g → collect (annotatorColumn score L c.post) = .ok g := by
    intro g hg
    rw [hg] at a1
    split_ifs at a1
    · cases hcol : collect (annotatorColumn score L c.post) with
      | error e => rw [hcol] at a1; cases a1
      | ok dd =>
        rw [hcol] at a1
        rw [Option.some.inj (Except.ok.inj a1)]
    · cases a1
  refine ⟨⟨_, e2, q1⟩, ?_, ?_⟩
  · intro d hd' m' i
    rw [e3] at hd'
    exact column_range score hs L c.post m' (d m') ((collect_ok_iff _ _).mp (hd d hd') m') i
  · intro rows hr a ha
    rw [e4] at hr
    rw [hr] at a2
    split_ifs at a2
    · cases hst : annotatorStats L c t.1 with
      | error e => rw [hst] at a2; cases a2
      | ok dd =>
        rw [hst] at a2
        obtain rfl := Option.some.inj (Except.ok.inj a2)
        obtain ⟨f, rfl, hf⟩ := annotatorStats_parts hst
        obtain ⟨m', -, rfl⟩ := List.mem_map.mp ((List.perm_insertionSort _ _).mem_iff.mp ha)
        obtain ⟨f1, f2, -⟩ := hf m'
        rw [f1]
        exact qualityOf_range score hs L c t.1 hd q2 m' (hv'.2.1 m') _ f2
    · cases a2

end

/-! ### Agreement as quality -/

omit [NeZero K] [LinearOrder F] in
/-- The probabilities of an integer array are the shares of the votes. -/
theorem agreementPost_int (L : Annotations n M K) (hv : ∀ i, ∃ m, L i m ≠ none) :
    agreementPost (F := F) true L = .ok (fun i k => (numVotes L i k : F) / numAnnotators L i) := by
  unfold agreementPost
  rw [collect_ok_iff]
  intro i
  set labels := (List.finRange M).filterMap (fun m => L i m) with hl
  have hne : labels.map Fin.val ≠ [] := by
    obtain ⟨m, hm⟩ := hv i
    obtain ⟨k, hk⟩ := Option.ne_none_iff_exists'.mp hm
    have : k ∈ labels := List.mem_filterMap.mpr ⟨m, List.mem_finRange m, hk⟩
    intro h
    rw [List.map_eq_nil_iff.mp h] at this
    cases this
  have hlt : ∀ a ∈ labels.map Fin.val, a < K := by
    intro a ha
    obtain ⟨k, -, rfl⟩ := List.mem_map.mp ha
    exact k.isLt
  have hcount : ∀ k : Fin K, (labels.map Fin.val).count k.val = numVotes L i k := by
    intro k
    rw [List.count_map_of_injective labels Fin.val Fin.val_injective k, ← labelCount_eq]
    unfold labelCount
    rw [hl, List.count_filterMap]
  dsimp only
  rw [C18_integer_labels _ K hlt hne]
  dsimp only [bind, Except.bind, pure, Except.pure]
  rw [dif_pos (by simp)]
  congr 1
  funext k
  rw [numAnnotations_eq]
  congr 2
  simpa using hcount k

variable [IsStrictOrderedRing F] in
/-- With shares of votes as probabilities the consensus is again a most frequent label. -/
theorem bestQuality_votes (L : Annotations n M K) (hv : ∀ i, ∃ m, L i m ≠ none) (mv : Fin n → Fin K)
    (hmv : ∀ i, IsMode L i (mv i)) :
    ∀ i, IsMode L i (bestQuality (fun i k => (numVotes L i k : F) / numAnnotators L i) mv i) := by
  intro i
  have hpos : (0 : F) < numAnnotators L i := by
    obtain ⟨m, hm⟩ := hv i
    have : 0 < numAnnotators L i := Finset.card_pos.mpr ⟨m, by simp [hm]⟩
    exact_mod_cast this
  rcases bestQuality_spec (fun i k => (numVotes L i k : F) / numAnnotators L i) mv i with h | ⟨h, -⟩
  · intro j
    have := (div_le_div_iff_of_pos_right hpos).mp (h j)
    exact_mod_cast this
  · rw [h]; exact hmv i

omit [NeZero K] in
variable [NeZero K] [IsStrictOrderedRing F] in
theorem consensus_agreement (L : Annotations n M K) (hv : ∀ i, ∃ m, L i m ≠ none) (score : Scorer K F)
    (P : Fin n → Fin K → F) (root : F) (c : Fin n → Fin K) (k : Consensus n M K F)
    (h : consensusOf true score "agreement" L P root c = .ok k) :
    k.label = c ∧ k.post = (fun i k => (numVotes L i k : F) / numAnnotators L i) ∧
      ∀ i, k.quality i = (numVotes L i (c i) : F) / numAnnotators L i := by
  unfold consensusOf at h
  rw [if_neg (by decide), if_pos rfl, agreementPost_int L hv] at h
  dsimp only [bind, Except.bind, pure, Except.pure] at h
  split_ifs at h with ha
  rw [← Except.ok.inj h]
  refine ⟨rfl, rfl, fun i => ?_⟩
  obtain ⟨a, ha', ha'', -⟩ := C21_example_agreement (F := F) L c i (hv i)
  simp only [ha', Option.get_some]
  exact ha''

variable [IsStrictOrderedRing F] in
/-- **C119 (partial).** For `quality_method="agreement"` and an array of integers the consensus label is, for both
consensus methods, a label that most annotators gave, and its quality is the fraction of the annotators who gave it.
Missing: arrays of floats, see `C119_not_agreement`. -/
theorem C119_agreement_partial (score : Scorer K F)
    (cal : Annotations n M K → (Fin n → Fin K → F) → Except String (Fin n → Fin K → F)) (o : Options)
    (L : Annotations n M K) (P : Fin n → Fin K → F) (rand : Fin n → ℕ) (root : F) (r : Report n M K F)
    (ho : o.quality = "agreement") (h : report true score cal o L P rand root = .ok r) (c : Column n K F)
    (hc : r.main = some c ∨ ∃ name, r.extra.lookup name = some c) (hne : o.methods ≠ []) (i : Fin n) :
    IsMode L i (c.label i) ∧ c.quality i = (numVotes L i (c.label i) : F) / numAnnotators L i := by
  obtain ⟨m, ms, hms⟩ := List.exists_cons_of_ne_nil hne
  obtain ⟨-, hv, P', l, mv, k, t, -, hl, hmv, hmc, -, -, e2, -, -, e5, e6, e7, -⟩ := report_cons h hms
  have hv' := ((assertValidInputs_iff L).mp hv).1
  rw [ho] at hmv hmc e5 e6
  obtain ⟨m1, m2, m3⟩ := consensus_agreement L hv' score P' root l mv hmv
  have hmode : ∀ i, IsMode L i (l i) := C19_majority_vote_is_mode L _ rand l hl
  have key : ∀ x k, methodConsensus true score "agreement" L P' root mv x = .ok k →
      IsMode L i (k.label i) ∧ k.quality i = (numVotes L i (k.label i) : F) / numAnnotators L i := by
    intro x k hk
    unfold methodConsensus at hk
    split_ifs at hk
    · rw [← Except.ok.inj hk, m1]
      exact ⟨hmode i, m3 i⟩
    · obtain ⟨k1, -, k3⟩ := consensus_agreement L hv' score P' root _ k hk
      rw [k1]
      refine ⟨?_, k3 i⟩
      rw [m2, m1]
      exact bestQuality_votes L hv' l hmode i
  rcases hc with hc | ⟨x, hx⟩
  · rw [e2] at hc
    rw [← Option.some.inj hc]
    exact key m k hmc
  · by_cases hmem : x ∈ ms
    · obtain ⟨k', hk'⟩ := e5 x hmem
      rw [e6 x k' hk' hmem] at hx
      rw [← Option.some.inj hx]
      exact key x k' hk'
    · rw [e7 x hmem] at hx; cases hx

/-! ### Where the options change more than they should -/

/-- Arguments without tables. -/
def onlyColumns (methods : List String) (quality : String) (weights : Bool) : Options :=
  { methods := methods, quality := quality, detailed := false, stats := false, weights := weights }

/-- No calibration. -/
def noCal : Annotations n M K → (Fin n → Fin K → F) → Except String (Fin n → Fin K → F) := fun _ P => .ok P

def allTwo : Annotations 1 2 3 := fun _ _ => some 2

def flat3 : Fin 1 → Fin 3 → ℚ := fun _ => ![1/4, 1/4, 1/2]

theorem allTwo_vote (rand : Fin 1 → ℕ) : majorityVote allTwo (some flat3) rand = .ok (fun _ => 2) := by
  have h : ∀ i, afterAnnotators allTwo (some flat3) i = [2] := by decide +kernel
  unfold majorityVote
  rw [dif_pos (fun i => by rw [h]; simp)]
  congr 1
  funext i
  simp only [h]
  simp

/-- **C119** fails for `quality_method="agreement"` when the labels are floats (as they are whenever a label is missing
or the labels are a DataFrame): two annotators give the third class, but the consensus of the default method is the first
class, which nobody gave, with quality 0. -/
theorem C119_not_agreement : ∃ (L : Annotations 1 2 3) (P : Fin 1 → Fin 3 → ℚ), ValidAnnotations L ∧
    (∀ i, IsDistribution (P i)) ∧ ∀ (rand : Fin 1 → ℕ) (root : ℚ), ∃ r c,
      report false defaultScorer noCal (onlyColumns ["best_quality"] "agreement" false) L P rand root = .ok r ∧
      r.main = some c ∧ (∀ m, L 0 m = some 2) ∧ c.label 0 = 0 ∧ c.quality 0 = 0 := by
  refine ⟨allTwo, flat3, (assertValidInputs_iff _).mp (by decide +kernel),
    fun i => ⟨by revert i; decide +kernel, by revert i; decide +kernel⟩, fun rand root => ?_⟩
  have hpost : agreementPost (F := ℚ) false allTwo = .ok (fun _ => ![1, 0, 0]) := by
    unfold agreementPost
    rw [collect_ok_iff]
    intro i
    have hc : valueCounts false (((List.finRange 2).filterMap (fun m => allTwo i m)).map Fin.val) (some 3) = .ok [2, 0, 0] := by
      revert i; decide +kernel
    dsimp only
    rw [hc]
    dsimp only [bind, Except.bind, pure, Except.pure]
    rw [dif_pos (by rfl)]
    congr 1
    funext k
    revert k i
    decide +kernel
  have hcons : ∀ (c : Fin 1 → Fin 3) (a : ℚ), (∀ i, agreementWithConsensus (F := ℚ) allTwo c i = some a) →
      consensusOf false defaultScorer "agreement" allTwo flat3 root c =
        .ok ⟨c, fun _ => some a, fun _ => a, fun _ => ![1, 0, 0], none⟩ := by
    intro c a ha
    have ha' : agreementWithConsensus (F := ℚ) allTwo c = fun _ => some a := funext ha
    unfold consensusOf
    rw [if_neg (by decide), if_pos rfl, hpost, ha']
    rfl
  have h1 : consensusOf false defaultScorer "agreement" allTwo flat3 root (fun _ => 2) =
      .ok ⟨fun _ => 2, fun _ => some 1, fun _ => 1, fun _ => ![1, 0, 0], none⟩ :=
    hcons _ 1 (by decide +kernel)
  have h2 : consensusOf false defaultScorer "agreement" allTwo flat3 root (fun _ => 0) =
      .ok ⟨fun _ => 0, fun _ => some 0, fun _ => 0, fun _ => ![1, 0, 0], none⟩ :=
    hcons _ 0 (by decide +kernel)
  have hb : bestQuality (n := 1) (fun _ => (![1, 0, 0] : Fin 3 → ℚ)) (fun _ => 2) = fun _ => 0 := by decide +kernel
  refine ⟨_, _, report_single (o := onlyColumns ["best_quality"] "agreement" false) (P' := flat3) (by decide) (by decide +kernel) rfl (allTwo_vote rand) h1 rfl
    (by unfold methodConsensus; rw [if_neg (by decide), if_pos rfl]; dsimp only; rw [hb]; exact h2) rfl, rfl, fun _ => rfl, rfl, rfl⟩

/-- A call with two methods. -/
theorem report_pair {isInt : Bool} {score : Scorer K F}
    {cal : Annotations n M K → (Fin n → Fin K → F) → Except String (Fin n → Fin K → F)} {o : Options}
    {L : Annotations n M K} {P : Fin n → Fin K → F} {rand : Fin n → ℕ} {root : F}
    {P' : Fin n → Fin K → F} {l : Fin n → Fin K} {mv : Consensus n M K F}
    (hw : ¬ (o.weights = true ∧ o.quality ≠ "crowdlab")) (hv : assertValidInputs L = .ok ())
    (hP : (if o.calibrate then cal L P else .ok P) = .ok P') (hl : majorityVote L (some P') rand = .ok l)
    (hc : consensusOf isInt score o.quality L P' root l = .ok mv) {m m' : String} (hms : o.methods = [m, m'])
    {c c' : Consensus n M K F} (hm : methodConsensus isInt score o.quality L P' root mv m = .ok c)
    (hm' : methodConsensus isInt score o.quality L P' root mv m' = .ok c')
    {t : Option (Fin M → Fin n → Option F) × Option (List (AnnotatorRow M K F))} (ht : tables score o L c = .ok t) :
    report isInt score cal o L P rand root = .ok
      { numAnnotations := numAnnotations L, main := some c.column, extra := [(m', c'.column)], detailed := t.1,
        stats := t.2, weights := if o.weights then some c'.weights else none } := by
  rw [report_of_parts hw hv hP hl hc (by rcases method_valid hm with rfl | rfl <;> simp [hms]), hms, List.foldlM_cons]
  have h1 : step isInt score o L P' root mv { numAnnotations := numAnnotations L } m = .ok
      { numAnnotations := numAnnotations L, main := some c.column, detailed := t.1, stats := t.2,
        weights := if o.weights then some c.weights else none } := by
    unfold step
    rw [hm]
    dsimp only [bind, Except.bind, pure, Except.pure]
    rw [ht]
  rw [h1]
  dsimp only [bind, Except.bind]
  rw [List.foldlM_cons]
  unfold step
  rw [hm']
  rfl

omit [NeZero K] in
theorem defaultScorer_ok (r : ℕ) (c : Fin r → Fin K) (P : Fin r → Fin K → F) (h : ∀ i k, 0 ≤ P i k ∧ P i k ≤ 1) :
    defaultScorer r c P = .ok (fun i => P i (c i)) := by
  unfold defaultScorer scorer
  rw [if_pos h]
  rfl

/-- CROWDLAB scores of one consensus of `exL`. -/
theorem exL_consensus (c : Fin 3 → Fin 3) (aw : Fin 4 → ℚ)
    (hcl : mean? ((multiRows exL).map (agreementWithConsensus (F := ℚ) exL c)) = some (7 / 12))
    (hmw : modelWeight exL c exP 2 = 1 / 500000) (haw : ∀ m, adjustedAgreement exL c (exAgr m) = aw m)
    (h01 : ∀ i k, 0 ≤ posterior exL exP (7 / 12) (1 / 500000) aw i k ∧ posterior exL exP (7 / 12) (1 / 500000) aw i k ≤ 1) :
    consensusOf false defaultScorer "crowdlab" exL exP 2 c =
      .ok ⟨c, agreementWithConsensus exL c, fun i => posterior exL exP (7 / 12) (1 / 500000) aw i (c i),
        posterior exL exP (7 / 12) (1 / 500000) aw, some (1 / 500000, aw)⟩ := by
  have hp := postCrowdlab_eq exL c exP 2 (7 / 12) exAgr (1 / 500000) aw hcl (by decide +kernel) hmw haw
  unfold consensusOf
  rw [if_pos rfl, hp]
  dsimp only [bind, Except.bind]
  rw [defaultScorer_ok _ _ _ h01]
  rfl

/-- **C119** fails for the weights: the columns without suffix and the tables are those of the first consensus method,
but the weights that are returned are those of the last one. Here the call with `["best_quality", "majority_vote"]`
returns a second annotator weight of `1/6`, while the scores of its first method used `1/1000000`. -/
theorem C119_not_weights : ∃ (L : Annotations 3 4 3) (P : Fin 3 → Fin 3 → ℚ) (root : ℚ), ValidAnnotations L ∧
    (∀ i, IsDistribution (P i)) ∧ 0 ≤ root ∧ root * root = (∑ i, (numAnnotators L i : ℚ)) / (3 : ℕ) ∧
    ∀ rand, ∃ r₁ r₂, report false defaultScorer noCal (onlyColumns ["best_quality", "majority_vote"] "crowdlab" true)
        L P rand root = .ok r₁ ∧
      report false defaultScorer noCal (onlyColumns ["best_quality"] "crowdlab" true) L P rand root = .ok r₂ ∧
      r₁.main = r₂.main ∧ ∃ mw a₁ a₂, r₁.weights = some (some (mw, a₁)) ∧ r₂.weights = some (some (mw, a₂)) ∧
        a₁ 1 = 1 / 6 ∧ a₂ 1 = 1 / 1000000 := by
  refine ⟨exL, exP, 2, exL_valid, fun i => ⟨by revert i; decide +kernel, by revert i; decide +kernel⟩, by norm_num,
    by decide +kernel, fun rand => ?_⟩
  have h1 := exL_consensus ![1, 2, 0] ![1/1000000, 1/6, 1/1000000, 1/1000000]
    (by decide +kernel) (by decide +kernel) (by decide +kernel) (by decide +kernel)
  have h2 := exL_consensus ![1, 2, 2] ![1/1000000, 1/1000000, 1/1000000, 1/1000000]
    (by decide +kernel) (by decide +kernel) (by decide +kernel) (by decide +kernel)
  have hb : bestQuality (posterior exL exP (7 / 12) (1 / 500000) ![1/1000000, 1/6, 1/1000000, 1/1000000])
      ![1, 2, 0] = ![1, 2, 2] := by decide +kernel
  have hv := (assertValidInputs_iff _).mpr exL_valid
  have hbest : ∀ mv, mv.label = ![1, 2, 0] →
      mv.post = posterior exL exP (7 / 12) (1 / 500000) ![1/1000000, 1/6, 1/1000000, 1/1000000] →
      methodConsensus false defaultScorer "crowdlab" exL exP 2 mv "best_quality" =
        consensusOf false defaultScorer "crowdlab" exL exP 2 ![1, 2, 2] := by
    intro mv e1 e2
    unfold methodConsensus
    rw [if_neg (by decide), if_pos rfl, e1, e2, hb]
  exact ⟨_, _, report_pair (o := onlyColumns ["best_quality", "majority_vote"] "crowdlab" true) (P' := exP) (by decide)
      hv rfl (exL_majority rand) h1 rfl ((hbest _ rfl rfl).trans h2) rfl rfl,
    report_single (o := onlyColumns ["best_quality"] "crowdlab" true) (P' := exP) (by decide) hv rfl
      (exL_majority rand) h1 rfl ((hbest _ rfl rfl).trans h2) rfl, rfl, 1 / 500000, _, _, rfl, rfl, by decide +kernel,
    by decide +kernel⟩

/-- One example with the same label from four annotators. -/
def fourZero : Annotations 1 4 3 := fun _ _ => some 0

def halfP : Fin 1 → Fin 3 → ℚ := fun _ => ![1/2, 1/4, 1/4]

theorem fourZero_vote (rand : Fin 1 → ℕ) : majorityVote fourZero (some halfP) rand = .ok (fun _ => 0) := by
  have h : ∀ i, afterAnnotators fourZero (some halfP) i = [0] := by decide +kernel
  unfold majorityVote
  rw [dif_pos (fun i => by rw [h]; simp)]
  congr 1
  funext i
  simp only [h]
  simp

def fourPost : Fin 1 → Fin 3 → ℚ := fun _ => ![5/6, 1/12, 1/12]

/-- The consensus of `fourZero` with scores by normalized margin. -/
def fourConsensus : Consensus 1 4 3 ℚ :=
  ⟨fun _ => 0, fun _ => some 1, fun _ => 7 / 8, fourPost, some (2, fun _ => 1)⟩


omit [NeZero K] in
theorem annotatorStats_ok (L : Annotations n M K) (c : Consensus n M K F) (d : Option (Fin M → Fin n → Option F))
    (q : Fin M → Option F) (hq : ∀ m, qualityOf L c d m = .ok (q m))
    (hw : ∀ m, ∃ w, worstClass L c.label c.quality m = some w) : ∃ rows, annotatorStats L c d = .ok rows := by
  choose w hw using hw
  have : ∀ m, annotatorRow L c d m = .ok ⟨m, q m, statsAgreement L c.label m, w m,
      (List.finRange n).countP (fun i => (L i m).isSome)⟩ := by
    intro m
    unfold annotatorRow
    rw [hq m]
    dsimp only [bind, Except.bind]
    rw [hw m]
  unfold annotatorStats
  rw [mapM_eq_map _ _ _ (fun m _ => this m)]
  exact ⟨_, rfl⟩

theorem four_consensus : consensusOf false (scorer .normalizedMargin) "crowdlab" fourZero halfP 2 (fun _ => 0) =
    .ok fourConsensus := by
  have hp := postCrowdlab_eq fourZero (fun _ => 0) halfP 2 1 (fun _ => 1) 2 (fun _ => 1)
    (by decide +kernel) (by decide +kernel) (by decide +kernel) (by decide +kernel)
  have hpost : posterior fourZero halfP 1 2 (fun _ => 1) = fourPost := by
    funext i k; revert i k; decide +kernel
  have ha : agreementWithConsensus (F := ℚ) fourZero (fun _ => 0) = fun _ => some 1 := by
    funext i; revert i; decide +kernel
  have hs : scorer .normalizedMargin 1 (fun _ => (0 : Fin 3)) fourPost = .ok (fun _ => 7 / 8) := by
    apply ok_of_toOption
    decide +kernel
  unfold consensusOf
  rw [if_pos rfl, hp, ha]
  dsimp only [bind, Except.bind]
  rw [hpost, hs]
  rfl

theorem four_none (m : Fin 4) : qualityOf fourZero fourConsensus none m = .ok (some (17 / 18)) := by
  apply ok_of_toOption
  revert m
  decide +kernel

theorem four_detailed (m : Fin 4) :
    qualityOf fourZero fourConsensus (some (fun _ _ => some (7 / 8))) m = .ok (some (23 / 24)) := by
  apply ok_of_toOption
  revert m
  decide +kernel

theorem four_columns : collect (annotatorColumn (scorer .normalizedMargin) fourZero fourPost) =
    .ok (fun _ _ => some (7 / 8)) := by
  rw [collect_ok_iff]
  intro m
  apply ok_of_toOption
  revert m
  decide +kernel

theorem four_best : bestQuality fourPost (fun _ => 0) = fun _ => 0 := by
  funext i; revert i; decide +kernel

theorem four_method : methodConsensus false (scorer .normalizedMargin) "crowdlab" fourZero halfP 2 fourConsensus
    "best_quality" = .ok fourConsensus := by
  unfold methodConsensus
  rw [if_neg (by decide), if_pos rfl]
  have : bestQuality fourConsensus.post fourConsensus.label = fun _ => 0 := four_best
  rw [this]
  exact four_consensus

theorem four_worst (m : Fin 4) : ∃ w, worstClass fourZero fourConsensus.label fourConsensus.quality m = some w :=
  ⟨0, by revert m; decide +kernel⟩

/-- **C119** fails for the table of annotators when the scores are not the default ones: asking for the table of scores
changes the quality of every annotator, because without that table the quality is computed from default scores. -/
theorem C119_not_flags : ∃ (L : Annotations 1 4 3) (P : Fin 1 → Fin 3 → ℚ) (root : ℚ), ValidAnnotations L ∧
    (∀ i, IsDistribution (P i)) ∧ 0 ≤ root ∧ root * root = (∑ i, (numAnnotators L i : ℚ)) / (1 : ℕ) ∧
    ∀ rand, ∃ r₁ r₂ rows₁ rows₂,
      report false (scorer .normalizedMargin) noCal { detailed := true } L P rand root = .ok r₁ ∧
      report false (scorer .normalizedMargin) noCal { detailed := false } L P rand root = .ok r₂ ∧
      r₁.main = r₂.main ∧ r₁.stats = some rows₁ ∧ r₂.stats = some rows₂ ∧ rows₁.length = 4 ∧ rows₂.length = 4 ∧
      (∀ a ∈ rows₁, a.quality = some (23 / 24)) ∧ ∀ a ∈ rows₂, a.quality = some (17 / 18) := by
  have hv : assertValidInputs fourZero = .ok () := by decide +kernel
  refine ⟨fourZero, halfP, 2, (assertValidInputs_iff _).mp hv,
    fun i => ⟨by revert i; decide +kernel, by revert i; decide +kernel⟩, by norm_num, by decide +kernel, fun rand => ?_⟩
  obtain ⟨rows₁, h₁⟩ := annotatorStats_ok fourZero fourConsensus (some (fun _ _ => some (7 / 8))) _ four_detailed four_worst
  obtain ⟨rows₂, h₂⟩ := annotatorStats_ok fourZero fourConsensus none _ four_none four_worst
  have t₁ : tables (scorer .normalizedMargin) { detailed := true } fourZero fourConsensus =
      .ok (some (fun _ _ => some (7 / 8)), some rows₁) := by
    unfold tables
    have : collect (annotatorColumn (scorer .normalizedMargin) fourZero fourConsensus.post) =
      .ok (fun _ _ => some (7 / 8)) := four_columns
    rw [if_pos rfl, this]
    dsimp only [bind, Except.bind, Except.map]
    rw [if_pos rfl, h₁]
    rfl
  have t₂ : tables (scorer .normalizedMargin) { detailed := false } fourZero fourConsensus = .ok (none, some rows₂) := by
    unfold tables
    rw [if_neg (by decide)]
    dsimp only [bind, Except.bind]
    rw [if_pos rfl, h₂]
    rfl
  refine ⟨_, _, rows₁, rows₂,
    report_single (o := { detailed := true }) (P' := halfP) (by decide) hv rfl (fourZero_vote rand) four_consensus rfl
      four_method t₁,
    report_single (o := { detailed := false }) (P' := halfP) (by decide) hv rfl (fourZero_vote rand) four_consensus rfl
      four_method t₂, rfl, rfl, rfl, ?_⟩
  obtain ⟨f, rfl, hf⟩ := annotatorStats_parts h₁
  obtain ⟨g, rfl, hg⟩ := annotatorStats_parts h₂
  refine ⟨by simp, by simp, ?_, ?_⟩
  · intro a ha
    obtain ⟨m, -, rfl⟩ := List.mem_map.mp ((List.perm_insertionSort _ _).mem_iff.mp ha)
    exact (Except.ok.inj ((four_detailed m).symm.trans (hf m).2.1)).symm
  · intro a ha
    obtain ⟨m, -, rfl⟩ := List.mem_map.mp ((List.perm_insertionSort _ _).mem_iff.mp ha)
    exact (Except.ok.inj ((four_none m).symm.trans (hg m).2.1)).symm

/-- The call of `C119_not_flags` meets the hypotheses of `C119_annotators` and `C119_range`. -/
example (rand : Fin 1 → ℕ) : ∃ r rows, report false (scorer .normalizedMargin) noCal {} fourZero halfP rand 2 = .ok r ∧
    r.stats = some rows ∧ (rows.map (·.annotator)).Perm (List.finRange 4) := by
  obtain ⟨rows, h⟩ := annotatorStats_ok fourZero fourConsensus (some (fun _ _ => some (7 / 8))) _ four_detailed four_worst
  have t : tables (scorer .normalizedMargin) {} fourZero fourConsensus =
      .ok (some (fun _ _ => some (7 / 8)), some rows) := by
    unfold tables
    have : collect (annotatorColumn (scorer .normalizedMargin) fourZero fourConsensus.post) =
      .ok (fun _ _ => some (7 / 8)) := four_columns
    rw [if_pos rfl, this]
    dsimp only [bind, Except.bind, Except.map]
    rw [if_pos rfl, h]
    rfl
  have hr := report_single (cal := noCal) (o := {}) (P := halfP) (P' := halfP) (by decide) (by decide +kernel) rfl (fourZero_vote rand)
    four_consensus rfl four_method t
  exact ⟨_, rows, hr, rfl, (C119_annotators _ _ _ _ _ _ _ _ _ hr rows rfl).1⟩

/-- Agreement as quality with an array of integers: a successful call. -/
example (rand : Fin 1 → ℕ) : ∃ r c, report true defaultScorer noCal
    (onlyColumns ["majority_vote", "best_quality"] "agreement" false) allTwo flat3 rand 1 = .ok r ∧ r.main = some c ∧
    c.label 0 = 2 ∧ c.quality 0 = 1 := by
  have hv : assertValidInputs allTwo = .ok () := by decide +kernel
  have hpost : agreementPost (F := ℚ) true allTwo = .ok (fun _ => ![0, 0, 1]) := by
    rw [agreementPost_int _ (((assertValidInputs_iff _).mp hv).1)]
    congr 1
    funext i k
    revert i k
    decide +kernel
  have ha : agreementWithConsensus (F := ℚ) allTwo (fun _ => 2) = fun _ => some 1 := by
    funext i; revert i; decide +kernel
  have h1 : consensusOf true defaultScorer "agreement" allTwo flat3 1 (fun _ => 2) =
      .ok ⟨fun _ => 2, fun _ => some 1, fun _ => 1, fun _ => ![0, 0, 1], none⟩ := by
    unfold consensusOf
    rw [if_neg (by decide), if_pos rfl, hpost, ha]
    rfl
  have hb : bestQuality (n := 1) (fun _ => (![0, 0, 1] : Fin 3 → ℚ)) (fun _ => 2) = fun _ => 2 := by decide +kernel
  exact ⟨_, _, report_pair (o := onlyColumns ["majority_vote", "best_quality"] "agreement" false) (P' := flat3) (by decide)
    hv rfl (allTwo_vote rand) h1 rfl rfl
    (by unfold methodConsensus; rw [if_neg (by decide), if_pos rfl]; dsimp only; rw [hb]; exact h1) rfl, rfl, rfl, rfl⟩

/-! ### The default scores -/

/-- The name of a consensus method. -/
def methodName : ConsensusMethod → String
  | .majorityVote => "majority_vote"
  | .bestQuality => "best_quality"

omit [NeZero K] in
/-- Means of default scores are the means of `Verif.Model.Multiannotator`. -/
theorem lqs_default (L : Annotations n M K) (post : Fin n → Fin K → F) (m : Fin M) (q : Option F)
    (h : lqs L post none m = .ok q) : q = annotatorLqs L post m := by
  unfold lqs columnScores defaultScorer scorer at h
  dsimp only [bind, Except.bind, pure, Except.pure] at h
  split_ifs at h
  dsimp only [labelQualityScores] at h
  have h := (Except.ok.inj h).symm
  rw [h]
  unfold annotatorLqs meanOf mean?
  rw [List.length_ofFn, List.length_map]
  show (if (labelledRows L m).length = 0 then none else _) = if (labelledRows L m).length = 0 then none else _
  split_ifs with h0
  · rfl
  · have hall : ((List.finRange n).filter (fun i => (L i m).isSome)).map (fun i => (L i m).map (post i)) =
        (List.ofFn (selfConfidence (labelOf L m) (fun r => post ((labelledRows L m).get r)))).map some := by
      rw [List.map_ofFn]
      show (labelledRows L m).map _ = _
      apply List.ext_get
      · simp
      · intro j h1 h2
        have hj : j < (labelledRows L m).length := by simpa using h1
        have hsome := (List.mem_filter.mp (List.get_mem (labelledRows L m) ⟨j, hj⟩)).2
        obtain ⟨x, hx⟩ := Option.isSome_iff_exists.mp hsome
        simp only [List.get_eq_getElem] at hx
        simp only [List.get_eq_getElem, List.getElem_map, List.getElem_ofFn, Function.comp, selfConfidence, labelOf, hx,
          Option.map_some, Option.get_some]
    rw [hall, mapM_id_some]
    rfl

omit [NeZero K] in
/-- A column of default scores. -/
theorem column_default (L : Annotations n M K) (post : Fin n → Fin K → F) (m : Fin M) (g : Fin n → Option F)
    (h : annotatorColumn defaultScorer L post m = .ok g) (i : Fin n) : g i = (L i m).map (post i) := by
  unfold annotatorColumn columnScores defaultScorer scorer at h
  dsimp only [bind, Except.bind, pure, Except.pure] at h
  split_ifs at h
  dsimp only [labelQualityScores] at h
  rw [← Except.ok.inj h]
  have hlen : (labelledRows L m).length =
      (List.ofFn (selfConfidence (labelOf L m) (fun r => post ((labelledRows L m).get r)))).length := by
    rw [List.length_ofFn]
  have hzip : ∀ p ∈ (labelledRows L m).zip (List.ofFn (selfConfidence (labelOf L m)
      (fun r => post ((labelledRows L m).get r)))), (L p.1 m).map (post p.1) = some p.2 := by
    intro p hp
    obtain ⟨j, hj, rfl⟩ := List.mem_iff_getElem.mp hp
    have hj' : j < (labelledRows L m).length := by rw [List.length_zip] at hj; omega
    have hsome := (List.mem_filter.mp (List.get_mem (labelledRows L m) ⟨j, hj'⟩)).2
    obtain ⟨x, hx⟩ := Option.isSome_iff_exists.mp hsome
    simp only [List.get_eq_getElem] at hx
    simp only [List.getElem_zip, List.getElem_ofFn, selfConfidence, labelOf, List.get_eq_getElem, hx, Option.map_some,
      Option.get_some]
  cases hL : L i m with
  | none =>
    show List.lookup i _ = _
    rw [Option.map_none, List.lookup_eq_none_iff]
    intro p hp
    simp only [bne_iff_ne, ne_eq]
    rintro rfl
    have := (List.mem_filter.mp (List.of_mem_zip (a := p.1) (b := p.2) hp).1).2
    rw [hL] at this; cases this
  | some x =>
    have hmem : i ∈ labelledRows L m := List.mem_filter.mpr ⟨List.mem_finRange i, by rw [hL]; rfl⟩
    rw [← List.map_fst_zip (l₂ := List.ofFn (selfConfidence (labelOf L m)
      (fun r => post ((labelledRows L m).get r)))) hlen.le] at hmem
    obtain ⟨p, hp, hpi⟩ := List.mem_map.mp hmem
    cases hlook : List.lookup i ((labelledRows L m).zip (List.ofFn (selfConfidence (labelOf L m)
        (fun r => post ((labelledRows L m).get r))))) with
    | none =>
      rw [List.lookup_eq_none_iff] at hlook
      have := hlook p hp
      rw [hpi] at this
      simp at this
    | some y =>
      obtain ⟨l₁, l₂, hl, -⟩ := List.lookup_eq_some_iff.mp hlook
      have := hzip (i, y) (by rw [hl]; simp)
      dsimp only at this
      rw [hL] at this
      exact hlook.trans this.symm

/-- One consensus method with default scores. -/
theorem consensus_default (isInt : Bool) (L : Annotations n M K) (P : Fin n → Fin K → F) (root : F) (c : Fin n → Fin K)
    (k : Consensus n M K F) (h : consensusOf isInt defaultScorer "crowdlab" L P root c = .ok k) :
    ∃ s, consensusStats L P c root = .ok s ∧ k = ⟨s.consensus, s.agreement, s.quality, s.posterior.post,
      some (s.posterior.modelWeight, s.posterior.annWeight)⟩ ∧ s.consensus = c ∧
      ∀ i m, s.detailed i m = (L i m).map (s.posterior.post i) := by
  unfold consensusOf at h
  rw [if_pos rfl] at h
  cases hp : postCrowdlab L c P root with
  | error e => rw [hp] at h; cases h
  | ok p =>
    rw [hp] at h
    dsimp only [bind, Except.bind] at h
    unfold defaultScorer scorer at h
    split_ifs at h
    · dsimp only [labelQualityScores, pure, Except.pure] at h
      unfold consensusStats
      rw [hp]
      exact ⟨_, rfl, (Except.ok.inj h).symm, rfl, fun _ _ => rfl⟩

/-- **C119.** With default scores and CROWDLAB the report of one consensus method contains the results of C20: columns,
table of scores, weights and the qualities of the annotators, computed from the calibrated probabilities if
`calibrate_probs` is set. -/
theorem C119_crowdlab (isInt : Bool)
    (cal : Annotations n M K → (Fin n → Fin K → F) → Except String (Fin n → Fin K → F)) (o : Options)
    (L : Annotations n M K) (P : Fin n → Fin K → F) (rand : Fin n → ℕ) (root : F) (r : Report n M K F)
    (hq : o.quality = "crowdlab") (method : ConsensusMethod) (hms : o.methods = [methodName method])
    (h : report isInt defaultScorer cal o L P rand root = .ok r) :
    ∃ P' s, (o.calibrate = true → cal L P = .ok P') ∧ (o.calibrate = false → P' = P) ∧
      labelQualityMultiannotator L P' rand root method = .ok s ∧ r.main = some ⟨s.consensus, s.quality, s.agreement⟩ ∧
      r.detailed = (if o.detailed then some (fun m i => s.detailed i m) else none) ∧
      r.weights = (if o.weights then some (some (s.posterior.modelWeight, s.posterior.annWeight)) else none) ∧
      (r.stats.isSome ↔ o.stats = true) ∧
      ∀ rows, r.stats = some rows → ∀ a ∈ rows, a.quality = annotatorQuality L s.consensus s.posterior a.annotator ∧
        worstClass L s.consensus s.quality a.annotator = some a.worst := by
  obtain ⟨-, hv, P', l, mv, c, t, hP', hl, hc, hmc, ht, -, e2, e3, e4, -, -, -, e8⟩ := report_cons h hms
  rw [hq] at hc hmc e8
  obtain ⟨s₁, hs₁, hmv, hs₁c, -⟩ := consensus_default isInt L P' root l mv hc
  have hrun : ∃ s, labelQualityMultiannotator L P' rand root method = .ok s ∧ c = ⟨s.consensus, s.agreement, s.quality,
      s.posterior.post, some (s.posterior.modelWeight, s.posterior.annWeight)⟩ ∧
      ∀ i m, s.detailed i m = (L i m).map (s.posterior.post i) := by
    unfold labelQualityMultiannotator
    rw [hv, hl]
    dsimp only [bind, Except.bind]
    rw [hs₁]
    cases method with
    | majorityVote =>
      obtain rfl := Except.ok.inj hmc
      obtain ⟨s₂, hs₂, hmv₂, -, hd₂⟩ := consensus_default isInt L P' root l mv hc
      obtain rfl := Except.ok.inj (hs₁.symm.trans hs₂)
      exact ⟨s₁, rfl, hmv, hd₂⟩
    | bestQuality =>
      unfold methodConsensus methodName at hmc
      rw [if_neg (by decide), if_pos rfl] at hmc
      obtain ⟨s₂, hs₂, hc₂, -, hd₂⟩ := consensus_default isInt L P' root _ c hmc
      rw [hmv] at hs₂
      dsimp only at hs₂ ⊢
      rw [hs₁c] at hs₂
      exact ⟨s₂, hs₂, hc₂, hd₂⟩
  obtain ⟨s, hs, hcs, hd⟩ := hrun
  obtain ⟨a1, a2⟩ := tables_parts ht
  have hcol : ∀ g, t.1 = some g → g = fun m i => s.detailed i m := by
    intro g hg
    rw [hg] at a1
    split_ifs at a1
    · cases hcol : collect (annotatorColumn defaultScorer L c.post) with
      | error e => rw [hcol] at a1; cases a1
      | ok dd =>
        rw [hcol] at a1
        obtain rfl := Option.some.inj (Except.ok.inj a1)
        funext m i
        rw [column_default L c.post m (dd m) ((collect_ok_iff _ _).mp hcol m) i, hd, hcs]
    · cases a1
  refine ⟨P', s, ?_, ?_, hs, ?_, ?_, ?_, ?_, ?_⟩
  · intro ho; rw [if_pos ho] at hP'; exact hP'
  · intro ho; rw [ho] at hP'; exact (Except.ok.inj hP').symm
  · rw [e2, hcs]; rfl
  · rw [e3]
    cases ht1 : t.1 with
    | none =>
      rw [ht1] at a1
      split_ifs with ho
      · rw [if_pos ho] at a1
        cases hcol : collect (annotatorColumn defaultScorer L c.post) with
        | error e => rw [hcol] at a1; cases a1
        | ok dd => rw [hcol] at a1; cases Except.ok.inj a1
      · rfl
    | some g =>
      rw [hcol g ht1]
      rw [ht1] at a1
      split_ifs with ho
      · rfl
      · rw [if_neg ho] at a1; cases Except.ok.inj a1
  · rw [e8 (methodName method) (by rw [hms]; simp) c hmc, hcs]
  · rw [e4]
    split_ifs at a2 with ho
    · cases hst : annotatorStats L c t.1 with
      | error e => rw [hst] at a2; cases a2
      | ok rows =>
        rw [hst] at a2
        rw [← Except.ok.inj a2]
        simp [ho]
    · rw [← Except.ok.inj a2]
      simp [ho]
  · intro rows hr a ha
    rw [e4] at hr
    rw [hr] at a2
    split_ifs at a2
    · cases hst : annotatorStats L c t.1 with
      | error e => rw [hst] at a2; cases a2
      | ok rows' =>
        rw [hst] at a2
        obtain rfl := Option.some.inj (Except.ok.inj a2)
        have hnone : annotatorStats L c none = .ok rows' := by
          cases ht1 : t.1 with
          | none => rw [ht1] at hst; exact hst
          | some g =>
            rw [ht1] at hst
            rw [← hst]
            refine (annotatorStats_detailed L c g (Or.inr ?_)).symm
            rw [ht1] at a1
            split_ifs at a1
            · cases hcol : collect (annotatorColumn defaultScorer L c.post) with
              | error e => rw [hcol] at a1; cases a1
              | ok dd =>
                rw [hcol] at a1
                rw [Option.some.inj (Except.ok.inj a1)]
            · cases a1
        obtain ⟨f, rfl, hf⟩ := annotatorStats_parts hnone
        obtain ⟨m', -, rfl⟩ := List.mem_map.mp ((List.perm_insertionSort _ _).mem_iff.mp ha)
        obtain ⟨f1, f2, -, f4, -⟩ := hf m'
        rw [f1]
        rw [hcs] at f2 f4
        refine ⟨?_, f4⟩
        unfold qualityOf at f2
        dsimp only at f2
        cases hq' : lqs L s.posterior.post none m' with
        | error e => rw [hq'] at f2; cases f2
        | ok q =>
          rw [hq'] at f2
          rw [← Except.ok.inj f2, lqs_default L _ m' q hq']
          unfold annotatorQuality
          cases annotatorLqs L s.posterior.post m' with
          | none => rfl
          | some x => cases agreementOnMulti (F := F) L s.consensus m' <;> rfl
    · cases a2

/-- **C119.** Calls that succeed have valid annotations, known methods, and ask for weights only with CROWDLAB. -/
theorem C119_refused (isInt : Bool) (score : Scorer K F)
    (cal : Annotations n M K → (Fin n → Fin K → F) → Except String (Fin n → Fin K → F)) (o : Options)
    (L : Annotations n M K) (P : Fin n → Fin K → F) (rand : Fin n → ℕ) (root : F) (r : Report n M K F)
    (h : report isInt score cal o L P rand root = .ok r) (hne : o.methods ≠ []) :
    ValidAnnotations L ∧ (∀ x ∈ o.methods, x = "best_quality" ∨ x = "majority_vote") ∧
      (o.quality = "crowdlab" ∨ o.quality = "agreement") ∧ (o.weights = true → o.quality = "crowdlab") := by
  obtain ⟨m, ms, hms⟩ := List.exists_cons_of_ne_nil hne
  obtain ⟨hw, hv, P', l, mv, c, t, hP', hl, hc, hmc, ht, -, -, -, -, e5, -⟩ := report_cons h hms
  refine ⟨(assertValidInputs_iff L).mp hv, ?_, ?_, ?_⟩
  · intro x hx
    rw [hms] at hx
    rcases List.mem_cons.mp hx with rfl | hx
    · exact method_valid hmc
    · obtain ⟨k, hk⟩ := e5 x hx
      exact method_valid hk
  · unfold consensusOf at hc
    by_contra hn
    push Not at hn
    rw [if_neg hn.1, if_neg hn.2] at hc
    cases hc
  · intro ho
    by_contra hq
    exact hw ⟨ho, hq⟩

omit [NeZero K] in
theorem worstClass_some (L : Annotations n M K) (c : Fin n → Fin K) (quality : Fin n → F) (m : Fin M)
    (hm : ∃ i, L i m ≠ none) : ∃ k, worstClass L c quality m = some k := by
  have hne : (List.finRange K).filter (fun k => decide (∃ i, L i m = some k)) ≠ [] := by
    obtain ⟨i, hi⟩ := hm
    obtain ⟨k, hk⟩ := Option.ne_none_iff_exists'.mp hi
    exact List.ne_nil_of_mem (List.mem_filter.mpr ⟨List.mem_finRange k, by simpa using ⟨i, hk⟩⟩)
  have hhead : ∀ l : List (Fin K), l ≠ [] → ∃ k, l.head? = some k := by
    intro l hl
    obtain ⟨a, as, rfl⟩ := List.exists_cons_of_ne_nil hl
    exact ⟨a, rfl⟩
  unfold worstClass
  dsimp only
  split_ifs
  · exact hhead _ (keepMax_ne_nil _ _ hne)
  · exact hhead _ (keepMax_ne_nil _ _ (keepMax_ne_nil _ _ hne))
  · exact hhead _ (keepMax_ne_nil _ _ (keepMax_ne_nil _ _ (keepMax_ne_nil _ _ hne)))

variable [IsStrictOrderedRing F] in
/-- **C119 (partial).** With default scores, CROWDLAB, distributions and known methods the call succeeds for all options,
provided that the majority vote (C19) does. -/
theorem C119_succeeds_partial (isInt : Bool)
    (cal : Annotations n M K → (Fin n → Fin K → F) → Except String (Fin n → Fin K → F)) (o : Options)
    (L : Annotations n M K) (P : Fin n → Fin K → F) (rand : Fin n → ℕ) (root : F) (hv : ValidAnnotations L)
    (hP : ∀ i, IsDistribution (P i)) (hroot0 : 0 ≤ root) (hroot : root * root = (∑ i, (numAnnotators L i : F)) / n)
    (hq : o.quality = "crowdlab") (hcal : o.calibrate = false) (hne : o.methods ≠ [])
    (hm : ∀ x ∈ o.methods, x = "best_quality" ∨ x = "majority_vote")
    (hmv : ∃ l, majorityVote L (some P) rand = .ok l) : ∃ r, report isInt defaultScorer cal o L P rand root = .ok r := by
  obtain ⟨l, hl⟩ := hmv
  have hcons : ∀ c, ∃ k, consensusOf isInt defaultScorer "crowdlab" L P root c = .ok k ∧ (∀ i, IsDistribution (k.post i)) := by
    intro c
    obtain ⟨p, hp, hd, -⟩ := C20_posterior_is_distribution L c P root hv hP hroot0 hroot
    unfold consensusOf
    rw [if_pos rfl, hp]
    dsimp only [bind, Except.bind]
    rw [defaultScorer_ok _ _ _ (fun i k => ⟨(hd i).1 k, dist_le_one _ (hd i) k⟩)]
    exact ⟨_, rfl, hd⟩
  obtain ⟨mv, hc, hmvd⟩ := hcons l
  have hmeth : ∀ x ∈ o.methods, ∃ k, methodConsensus isInt defaultScorer "crowdlab" L P root mv x = .ok k ∧
      (∀ i, IsDistribution (k.post i)) := by
    intro x hx
    unfold methodConsensus
    rcases hm x hx with rfl | rfl
    · rw [if_neg (by decide), if_pos rfl]
      exact hcons _
    · rw [if_pos rfl]
      exact ⟨mv, rfl, hmvd⟩
  have htab : ∀ c : Consensus n M K F, (∀ i, IsDistribution (c.post i)) → ∃ t, tables defaultScorer o L c = .ok t := by
    intro c hd
    have hcs : ∀ m, ∃ s, columnScores defaultScorer L c.post m = .ok s := by
      intro m
      unfold columnScores
      rw [defaultScorer_ok _ _ _ (fun i k => ⟨(hd _).1 k, dist_le_one _ (hd _) k⟩)]
      exact ⟨_, rfl⟩
    have hcol : ∀ m, ∃ g, annotatorColumn defaultScorer L c.post m = .ok g := by
      intro m
      obtain ⟨s, hs⟩ := hcs m
      unfold annotatorColumn
      rw [hs]
      exact ⟨_, rfl⟩
    choose g hg using hcol
    have hcoll : collect (annotatorColumn defaultScorer L c.post) = .ok g := (collect_ok_iff _ _).mpr hg
    have hdet : ∃ d, (if o.detailed then (collect (annotatorColumn defaultScorer L c.post)).map some else .ok none :
        Except String (Option (Fin M → Fin n → Option F))) = .ok d := by
      split_ifs
      · rw [hcoll]; exact ⟨_, rfl⟩
      · exact ⟨_, rfl⟩
    obtain ⟨d, hd'⟩ := hdet
    have hqual : ∀ m, ∃ q, qualityOf L c d m = .ok q := by
      intro m
      obtain ⟨s, hs⟩ := hcs m
      have hlqs : ∃ q, lqs L c.post d m = .ok q := by
        cases d with
        | none => unfold lqs; rw [hs]; exact ⟨_, rfl⟩
        | some d => exact ⟨_, rfl⟩
      obtain ⟨q, hq⟩ := hlqs
      unfold qualityOf
      cases c.weights with
      | none => exact ⟨_, rfl⟩
      | some w => dsimp only; rw [hq]; exact ⟨_, rfl⟩
    choose q hq' using hqual
    obtain ⟨rows, hrows⟩ := annotatorStats_ok L c d q hq' (fun m => by
      exact worstClass_some L c.label c.quality m (hv.2.1 m))
    unfold tables
    rw [hd']
    dsimp only [bind, Except.bind]
    split_ifs
    · rw [hrows]; exact ⟨_, rfl⟩
    · exact ⟨_, rfl⟩
  have hstep : ∀ (ms : List String), (∀ x ∈ ms, x ∈ o.methods) → ∀ r₀ : Report n M K F,
      ∃ r, ms.foldlM (step isInt defaultScorer o L P root mv) r₀ = .ok r := by
    intro ms
    induction ms with
    | nil => intro _ r₀; exact ⟨r₀, rfl⟩
    | cons x xs ih =>
      intro hx r₀
      obtain ⟨k, hk, hkd⟩ := hmeth x (hx x (by simp))
      obtain ⟨t, ht⟩ := htab k hkd
      have : ∃ r₁, step isInt defaultScorer o L P root mv r₀ x = .ok r₁ := by
        unfold step
        rw [hq, hk]
        dsimp only [bind, Except.bind, pure, Except.pure]
        cases r₀.main with
        | none => dsimp only; rw [ht]; exact ⟨_, rfl⟩
        | some _ => exact ⟨_, rfl⟩
      obtain ⟨r₁, h₁⟩ := this
      rw [List.foldlM_cons, h₁]
      exact ih (fun y hy => hx y (by simp [hy])) r₁
  obtain ⟨r, hr⟩ := hstep o.methods (fun x hx => hx) { numAnnotations := numAnnotations L }
  refine ⟨r, ?_⟩
  rw [report_of_parts (P' := P) (by simp [hq]) ((assertValidInputs_iff L).mpr hv) (by rw [hcal]; rfl) hl (by rw [hq]; exact hc) ?_]
  · exact hr
  · obtain ⟨m, ms, hms⟩ := List.exists_cons_of_ne_nil hne
    rcases hm m (by rw [hms]; simp) with rfl | rfl <;> simp [hms]

/-- All options on the example of C20. -/
example (rand : Fin 3 → ℕ) : ∃ r, report false defaultScorer noCal
    { methods := ["best_quality", "majority_vote"], weights := true } exL exP rand 2 = .ok r :=
  C119_succeeds_partial false noCal _ exL exP rand 2 exL_valid
    (fun i => ⟨by revert i; decide +kernel, by revert i; decide +kernel⟩) (by norm_num) (by decide +kernel) rfl rfl
    (by simp) (by decide) ⟨_, exL_majority rand⟩

end Cleanlab.Props
