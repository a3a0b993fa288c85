import Verif.Model.ImageChecks
import Mathlib.Data.List.Forall2
import Mathlib.Tactic.NormNum

/-!
# C142: which image checks a call runs
-/

namespace Cleanlab.Props

open Cleanlab.Finder Cleanlab.ImageChecks

variable {V : Type}

/-- The image checks of a call without arguments, as documented. -/
def namedImageChecks : List String :=
  ["dark", "light", "low_information", "odd_aspect_ratio", "odd_size", "grayscale", "blurry"]

/-- The check that is run for an entry of `image_issue_types`: with the given parameters, or with the defaults of Datalab
if none are given. -/
def RunAs (requested run : String × List (String × ℚ)) : Prop :=
  run.1 = requested.1 ∧
  (requested.2 ≠ [] → run.2 = requested.2) ∧
  (requested.2 = [] → run.2 = if requested.1 = "low_information" then [("threshold", 3 / 20)] else [])

/-- The ordinary part of the call does not raise. -/
def OrdinaryOk (task : Task) (registry : List String) (hasLabels : Bool) (c : Call V) (heap : ℕ → Dict V)
    (checks : Option (List (String × ℕ))) (ordinary : List (String × List (String × V))) : Prop :=
  (Finder.findIssues task registry hasLabels c heap checks).2 = .ok ordinary

theorem fillParams_ok (e : String × List (String × ℚ)) (h : e.2 = [] → e.1 ∈ namedImageChecks) :
    ∃ e', fillParams e = .ok e' ∧ RunAs e e' := by
  obtain ⟨name, params⟩ := e
  unfold fillParams
  by_cases hp : params = []
  · subst hp
    have hn := h rfl
    simp only [namedImageChecks, List.mem_cons, List.not_mem_nil, or_false] at hn
    rcases hn with rfl | rfl | rfl | rfl | rfl | rfl | rfl
    all_goals
      refine ⟨_, rfl, rfl, fun hne => absurd rfl hne, fun _ => ?_⟩
      norm_num <;> decide
  · exact ⟨(name, params), by rw [if_neg hp], rfl, fun _ => rfl, fun h0 => absurd h0 hp⟩

theorem fillParams_error (name : String) (h : name ∉ namedImageChecks) :
    fillParams (name, []) = .error ("KeyError: " ++ name) := by
  unfold fillParams
  rw [if_pos rfl]
  have : defaultChecks.lookup name = none := by
    rw [List.lookup_eq_none_iff]
    intro p hp
    simp only [defaultChecks, List.mem_cons, List.not_mem_nil, or_false] at hp
    simp only [namedImageChecks, List.mem_cons, List.not_mem_nil, or_false, not_or] at h
    rcases hp with rfl | rfl | rfl | rfl | rfl | rfl | rfl <;> simp [h]
  rw [this]

theorem mapM_fillParams (requested : List (String × List (String × ℚ))) :
    (∀ e ∈ requested, e.2 = [] → e.1 ∈ namedImageChecks) →
    ∃ run, requested.mapM fillParams = .ok run ∧ List.Forall₂ RunAs requested run := by
  induction requested with
  | nil => exact fun _ => ⟨[], rfl, .nil⟩
  | cons e rest ih =>
    intro h
    obtain ⟨e', he, hr⟩ := fillParams_ok e (h e List.mem_cons_self)
    obtain ⟨run, hrun, hf⟩ := ih (fun x hx => h x (List.mem_cons_of_mem _ hx))
    refine ⟨e' :: run, ?_, .cons hr hf⟩
    rw [List.mapM_cons, he, hrun]
    rfl

theorem mapM_fillParams_error (requested : List (String × List (String × ℚ))) (name : String)
    (hm : (name, []) ∈ requested) (hn : name ∉ namedImageChecks) :
    ∃ e, requested.mapM fillParams = .error e := by
  induction requested with
  | nil => simp at hm
  | cons e rest ih =>
    rw [List.mapM_cons]
    rcases List.mem_cons.mp hm with rfl | hm
    · rw [fillParams_error name hn]
      exact ⟨_, rfl⟩
    · cases he : fillParams e with
      | error x => exact ⟨x, rfl⟩
      | ok e' =>
        obtain ⟨x, hx⟩ := ih hm
        rw [hx]
        exact ⟨x, rfl⟩

theorem imageTypes_some (t : IssueTypes) (requested : List (String × List (String × ℚ))) (h : t.image = some requested) :
    imageTypes (some t) = (requested.mapM fillParams).map some := by
  unfold imageTypes
  dsimp only
  rw [h]

theorem imageTypes_none (t : IssueTypes) (h : t.image = none) : imageTypes (some t) = .ok none := by
  unfold imageTypes
  dsimp only
  rw [h]

theorem datalab_none (task : Task) (registry : List String) (hasLabels : Bool) (c : Call V) (heap : ℕ → Dict V)
    (scores : List String) (succeeds : Bool) :
    datalabFindIssues task registry hasLabels c heap scores succeeds none =
      ImageChecks.findIssues task registry hasLabels c heap scores succeeds none := rfl

theorem datalab_nonempty (task : Task) (registry : List String) (hasLabels : Bool) (c : Call V) (heap : ℕ → Dict V)
    (scores : List String) (succeeds : Bool) (t : IssueTypes) (h : t.isEmpty = false) :
    datalabFindIssues task registry hasLabels c heap scores succeeds (some t) =
      ImageChecks.findIssues task registry hasLabels c heap scores succeeds (some t) := by
  unfold datalabFindIssues
  rw [if_neg (by simp [h])]

theorem datalab_empty (task : Task) (registry : List String) (hasLabels : Bool) (c : Call V) (heap : ℕ → Dict V)
    (scores : List String) (succeeds : Bool) (t : IssueTypes) (h : t.isEmpty = true) :
    datalabFindIssues task registry hasLabels c heap scores succeeds (some t) = (heap, ⟨[], none, none, none⟩) := by
  unfold datalabFindIssues
  rw [if_pos (by simp [h])]

/-- Without `issue_types` the ordinary default checks run, then the seven documented image checks, `low_information` with
the threshold 0.15 and the others without parameters, and then the search for spurious correlations with the threshold
0.3. -/
theorem C142_no_argument (task : Task) (registry : List String) (hasLabels : Bool) (c : Call V) (heap : ℕ → Dict V)
    (scores : List String) (ordinary : List (String × List (String × V)))
    (ho : OrdinaryOk task registry hasLabels c heap none ordinary) :
    let o := (datalabFindIssues task registry hasLabels c heap scores true none).2
    o.ordinary = ordinary ∧ o.raised = none ∧ o.correlations = some (3 / 10) ∧
    ∃ run, o.image = some run ∧ List.Forall₂ RunAs (namedImageChecks.map (fun t => (t, []))) run := by
  dsimp only
  rw [datalab_none]
  unfold ImageChecks.findIssues
  have ho' : (Finder.findIssues task registry hasLabels c heap (Option.map IssueTypes.checks none)).2 = .ok ordinary := ho
  dsimp only
  rw [ho']
  refine ⟨rfl, rfl, ?_, defaultChecks, rfl, ?_⟩
  · have hx : (defaultChecks.all fun e => decide (e.1 ∉ scoresAfter scores (some defaultChecks) true)) = false := by
      rw [List.all_eq_false]
      refine ⟨("dark", []), by simp [defaultChecks], ?_⟩
      simp [scoresAfter, defaultChecks]
    show correlationThreshold (scoresAfter scores (some defaultChecks) true) .trivial = _
    unfold correlationThreshold
    dsimp only
    rw [hx]
    rfl
  · unfold namedImageChecks defaultChecks RunAs
    simp only [List.map_cons, List.map_nil]
    refine .cons ?_ (.cons ?_ (.cons ?_ (.cons ?_ (.cons ?_ (.cons ?_ (.cons ?_ .nil))))))
    all_goals norm_num <;> decide

/-- With `image_issue_types` exactly the checks named there run, in that order, with the given parameters, or with the
defaults of Datalab where none are given.  Every check without parameters has to be one of the seven documented ones
(`C142_raises_iff`). -/
theorem C142_requested_partial (task : Task) (registry : List String) (hasLabels : Bool) (c : Call V) (heap : ℕ → Dict V)
    (scores : List String) (succeeds : Bool) (t : IssueTypes) (ordinary : List (String × List (String × V)))
    (ho : OrdinaryOk task registry hasLabels c heap (some t.checks) ordinary)
    (requested : List (String × List (String × ℚ))) (ht : t.image = some requested) (hne : requested ≠ [])
    (hd : ∀ e ∈ requested, e.2 = [] → e.1 ∈ namedImageChecks) :
    let o := (datalabFindIssues task registry hasLabels c heap scores succeeds (some t)).2
    o.ordinary = ordinary ∧ o.raised = none ∧ ∃ run, o.image = some run ∧ List.Forall₂ RunAs requested run := by
  dsimp only
  rw [datalab_nonempty _ _ _ _ _ _ _ t (by simp [IssueTypes.isEmpty, ht])]
  unfold ImageChecks.findIssues
  have ho' : (Finder.findIssues task registry hasLabels c heap (Option.map IssueTypes.checks (some t))).2 =
      .ok ordinary := ho
  obtain ⟨run, hrun, hf⟩ := mapM_fillParams requested hd
  have hi : imageTypes (some t) = .ok (some run) := by
    rw [imageTypes_some t requested ht, hrun]
    rfl
  dsimp only
  rw [ho', hi]
  refine ⟨rfl, rfl, run, ?_, hf⟩
  have : run ≠ [] := by
    intro h0
    rw [h0] at hf
    exact hne (List.forall₂_nil_right_iff.mp hf)
  dsimp only
  rw [Option.filter_some, if_pos (by simpa using this)]

/-- A call that names ordinary checks only runs no image check. -/
theorem C142_unnamed (task : Task) (registry : List String) (hasLabels : Bool) (c : Call V) (heap : ℕ → Dict V)
    (scores : List String) (succeeds : Bool) (t : IssueTypes) (ht : t.image = none) :
    (datalabFindIssues task registry hasLabels c heap scores succeeds (some t)).2.image = none := by
  cases he : t.isEmpty with
  | true => rw [datalab_empty _ _ _ _ _ _ _ t he]
  | false =>
  rw [datalab_nonempty _ _ _ _ _ _ _ t he]
  unfold ImageChecks.findIssues
  have hi := imageTypes_none t ht
  dsimp only
  cases (Finder.findIssues task registry hasLabels c heap (Option.map IssueTypes.checks (some t))).2 with
  | error e => rfl
  | ok o => rw [hi]; rfl

/-- The image part of the call raises exactly if a check outside the seven is named without parameters.  The ordinary
checks have run by then, and no image check and no search for spurious correlations runs any more. -/
theorem C142_raises_iff (task : Task) (registry : List String) (hasLabels : Bool) (c : Call V) (heap : ℕ → Dict V)
    (scores : List String) (succeeds : Bool) (t : IssueTypes) (ordinary : List (String × List (String × V)))
    (ho : OrdinaryOk task registry hasLabels c heap (some t.checks) ordinary) :
    let o := (datalabFindIssues task registry hasLabels c heap scores succeeds (some t)).2
    (o.raised ≠ none ↔ ∃ requested, t.image = some requested ∧ ∃ name, (name, []) ∈ requested ∧ name ∉ namedImageChecks) ∧
    (o.raised ≠ none → o.ordinary = ordinary ∧ o.image = none ∧ o.correlations = none) := by
  dsimp only
  cases he : t.isEmpty with
  | true =>
    rw [datalab_empty _ _ _ _ _ _ _ t he]
    refine ⟨⟨fun h => absurd rfl h, ?_⟩, fun h => absurd rfl h⟩
    rintro ⟨requested, hi, _⟩
    simp [IssueTypes.isEmpty, hi] at he
  | false =>
  rw [datalab_nonempty _ _ _ _ _ _ _ t he]
  unfold ImageChecks.findIssues
  have ho' : (Finder.findIssues task registry hasLabels c heap (Option.map IssueTypes.checks (some t))).2 =
      .ok ordinary := ho
  dsimp only
  rw [ho']
  have key : (∃ x, imageTypes (some t) = .error x) ↔
      ∃ requested, t.image = some requested ∧ ∃ name, (name, []) ∈ requested ∧ name ∉ namedImageChecks := by
    constructor
    · rintro ⟨x, hx⟩
      cases hi : t.image with
      | none => rw [imageTypes_none t hi] at hx; cases hx
      | some requested =>
        refine ⟨requested, rfl, ?_⟩
        by_contra hcon
        push Not at hcon
        obtain ⟨run, hrun, _⟩ := mapM_fillParams requested (by
          rintro ⟨name, params⟩ he hp
          dsimp only at hp
          subst hp
          exact hcon name he)
        rw [imageTypes_some t requested hi, hrun] at hx
        cases hx
    · rintro ⟨requested, hi, name, hm, hn⟩
      obtain ⟨x, hx⟩ := mapM_fillParams_error requested name hm hn
      refine ⟨x, ?_⟩
      rw [imageTypes_some t requested hi, hx]
      rfl
  rw [← key]
  cases imageTypes (some t) with
  | error x => exact ⟨by simp, fun _ => ⟨rfl, rfl, rfl⟩⟩
  | ok r => exact ⟨by simp, fun h => absurd rfl h⟩

/-- The checks for duplicates of the image library cannot be run with their default parameters: naming one of them without
parameters raises after the ordinary checks have run, whatever else is asked for. -/
theorem C142_not_defaults (task : Task) (registry : List String) (hasLabels : Bool) (c : Call V) (heap : ℕ → Dict V)
    (scores : List String) (succeeds : Bool) (spurious : Option (Option ℚ)) :
    (datalabFindIssues task registry hasLabels c heap scores succeeds
      (some ⟨[], some [("near_duplicates", [])], spurious⟩)).2.raised ≠ none := by
  refine (C142_raises_iff task registry hasLabels c heap scores succeeds _ [] ?_).1.mpr
    ⟨_, rfl, "near_duplicates", by simp, by decide⟩
  rfl

/-- When the spurious correlations are searched, and with which threshold, in a call that does not raise: the key is named
and the image library has scores of one of the seven documented checks, from this call or an earlier one. -/
theorem C142_correlations (task : Task) (registry : List String) (hasLabels : Bool) (c : Call V) (heap : ℕ → Dict V)
    (scores : List String) (t : IssueTypes)
    (hr : (datalabFindIssues task registry hasLabels c heap scores true (some t)).2.raised = none) (θ : ℚ) :
    (datalabFindIssues task registry hasLabels c heap scores true (some t)).2.correlations = some θ ↔
      (∃ s ∈ namedImageChecks, s ∈ scores ∨ ∃ requested, t.image = some requested ∧ s ∈ requested.map Prod.fst) ∧
      (t.spurious = some (some θ) ∨ t.spurious = some none ∧ θ = 3 / 10) := by
  cases hem : t.isEmpty with
  | true =>
    rw [datalab_empty _ _ _ _ _ _ _ t hem]
    refine ⟨fun h => by (cases h), fun h => ?_⟩
    simp only [IssueTypes.isEmpty, Bool.and_eq_true, Option.isNone_iff_eq_none] at hem
    simp [hem.2] at h
  | false =>
  rw [datalab_nonempty _ _ _ _ _ _ _ t hem] at hr ⊢
  unfold ImageChecks.findIssues at hr ⊢
  dsimp only at hr ⊢
  cases ho : (Finder.findIssues task registry hasLabels c heap (Option.map IssueTypes.checks (some t))).2 with
  | error e => rw [ho] at hr; cases hr
  | ok ordinary =>
    rw [ho] at hr
    dsimp only at hr ⊢
    cases hi : imageTypes (some t) with
    | error e => rw [hi] at hr; cases hr
    | ok run =>
      dsimp only
      have hs : ∀ s, s ∈ scoresAfter scores run true ↔
          s ∈ scores ∨ ∃ requested, t.image = some requested ∧ s ∈ requested.map Prod.fst := by
        intro s
        cases him : t.image with
        | none =>
          rw [imageTypes_none t him] at hi
          rw [← Except.ok.inj hi]
          simp [scoresAfter]
        | some requested =>
          have hd : ∀ e ∈ requested, e.2 = [] → e.1 ∈ namedImageChecks := by
            rintro ⟨name, params⟩ he hp
            dsimp only at hp
            subst hp
            by_contra hn
            obtain ⟨x, hx⟩ := mapM_fillParams_error requested name he hn
            rw [imageTypes_some t requested him, hx] at hi
            cases hi
          obtain ⟨l, hl, hf⟩ := mapM_fillParams requested hd
          rw [imageTypes_some t requested him, hl] at hi
          rw [← Except.ok.inj hi]
          have hfst : l.map Prod.fst = requested.map Prod.fst := by
            clear hi hl hd him hr
            induction hf with
            | nil => rfl
            | cons h _ ih => rw [List.map_cons, List.map_cons, ih, h.1]
          unfold scoresAfter
          dsimp only
          cases l with
          | nil =>
            have : requested = [] := by simpa using hfst.symm
            simp [this]
          | cons a l' =>
            rw [if_neg (by simp), if_pos rfl, List.mem_append, hfst]
            simp
      have hav : (defaultChecks.all fun e => decide (e.1 ∉ scoresAfter scores run true)) = false ↔
          ∃ s ∈ namedImageChecks, s ∈ scores ∨ ∃ requested, t.image = some requested ∧ s ∈ requested.map Prod.fst := by
        rw [List.all_eq_false]
        have hn : namedImageChecks = defaultChecks.map Prod.fst := rfl
        constructor
        · rintro ⟨e, he, h⟩
          refine ⟨e.1, hn ▸ List.mem_map_of_mem he, (hs e.1).mp ?_⟩
          simpa using h
        · rintro ⟨s, hsn, h⟩
          rw [hn, List.mem_map] at hsn
          obtain ⟨e, he, rfl⟩ := hsn
          exact ⟨e, he, by simpa using (hs e.1).mpr h⟩
      rw [← hav]
      unfold correlationThreshold spuriousRequest
      dsimp only
      rw [if_neg (by simp [hem])]
      obtain ⟨checks, image, spurious⟩ := t
      dsimp only
      cases hb : (defaultChecks.all fun e => decide (e.1 ∉ scoresAfter scores run true)) with
      | true =>
        refine ⟨fun h => ?_, fun h => absurd h.1 (by simp)⟩
        cases spurious <;> cases h
      | false =>
        cases spurious with
        | none => simp
        | some th =>
          cases th with
          | none => simp [Spurious.defaultThreshold, eq_comm]
          | some x => simp

/-- An empty dictionary runs nothing and changes nothing. -/
theorem C142_nothing (task : Task) (registry : List String) (hasLabels : Bool) (c : Call V) (heap : ℕ → Dict V)
    (scores : List String) (succeeds : Bool) :
    datalabFindIssues task registry hasLabels c heap scores succeeds (some ⟨[], none, none⟩) =
      (heap, ⟨[], none, none, none⟩) := rfl

/-- The image checks are available exactly for a data set of Hugging Face with a non-empty image key; any other data set with
such a key is refused. -/
theorem C142_created (key : Option String) (isHuggingFace : Bool) :
    (createImagelab key isHuggingFace = .ok true ↔ (∃ k, key = some k ∧ k ≠ "") ∧ isHuggingFace = true) ∧
    ((∃ e, createImagelab key isHuggingFace = .error e) ↔ (∃ k, key = some k ∧ k ≠ "") ∧ isHuggingFace = false) := by
  unfold createImagelab
  cases key with
  | none => simp
  | some k =>
    by_cases hk : k = ""
    · simp [hk]
    · cases isHuggingFace <;> simp [hk]

/-- A request with parameters for one check and without for another. -/
example : (datalabFindIssues (V := ℕ) .classification [] true ⟨none, none, none⟩ (fun _ => []) [] true
    (some ⟨[], some [("dark", [("threshold", 1 / 2)]), ("low_information", [])], none⟩)).2.image =
    some [("dark", [("threshold", 1 / 2)]), ("low_information", [("threshold", 15 / 100)])] := rfl

end Cleanlab.Props
