import Verif.Model.RegressionFit
import Verif.Props.Regression
import Verif.Props.Outre
import Verif.Props.Token

/-!
# C110, C111, C112: training a regression model on cleaned data, uncertainties, seeds
-/

namespace Cleanlab.Props

open Np Cleanlab.Regression Cleanlab.RegressionFit

variable {n : ℕ} {κ : Type}

/-! ## `find_label_issues` on an object -/

theorem regressionFind_ok (B : ArgSort ℚ) (A : ArgSort ℝ) (E : RegressionFit.Env n κ) (o o' : Obj) (c : FindCall n κ) (t : Table)
    (h : RegressionFit.find B A E o c = (o', .ok t)) :
    ∃ k l, chooseFraction B E c = .ok (k, l) ∧ RegressionFit.issueTable A E c k l = .ok t ∧ o'.k = some k ∧
      o'.table = if c.saveSpace then o.table else some t := by
  unfold RegressionFit.find at h
  cases hc : chooseFraction B E c with
  | error e => rw [hc] at h; cases h
  | ok kl =>
    obtain ⟨k, l⟩ := kl
    rw [hc] at h
    simp only [] at h
    cases ht : RegressionFit.issueTable A E c k l with
    | error e => rw [ht] at h; cases h
    | ok t' =>
      rw [ht] at h
      simp only [Prod.mk.injEq, Except.ok.injEq] at h
      obtain ⟨rfl, rfl⟩ := h
      refine ⟨k, l, rfl, ht, ?_, ?_⟩ <;> split_ifs <;> rfl

/-- The surroundings in the sense of `Verif.Model.Regression`, once the uncertainty is known. -/
noncomputable def plainEnv (E : RegressionFit.Env n κ) (y : Fin n → ℚ) (u : Fin n → ℝ) : Regression.Env n κ :=
  { fit := E.fit y, noKwargs := E.noKwargs, folds := E.folds, assignInitial := E.assignInitial
    assignFinal := E.assignFinal, assignSearch := E.assignSearch, r2 := E.r2 y, uncertainty := fun _ => u }

/-- The table of a result, as a data frame. -/
noncomputable def tableOf (y : Fin n → ℚ) (integer : Bool) (r : Issues n) : Table :=
  { isIssue := .bools (List.ofFn r.flags), quality := some (List.ofFn r.scores), given := some (List.ofFn y)
    predicted := some (List.ofFn (fun i => if integer then ((trunc (r.predicted i) : ℤ) : ℚ) else r.predicted i)) }

/-- A successful search for issues is one in the sense of `Verif.Model.Regression`, with the resolved uncertainty. -/
theorem find_plain (B : ArgSort ℚ) (A : ArgSort ℝ) (E : RegressionFit.Env n κ) (o o' : Obj) (c : FindCall n κ) (t : Table)
    (h : RegressionFit.find B A E o c = (o', .ok t)) :
    ∃ u r, resolveUncertainty E c.y r.predicted c.uncertainty = .ok u ∧
      findLabelIssues B A (plainEnv E c.y u) c.kwargs c.y c.coarse c.size = .ok r ∧ o'.k = some r.k ∧
      t = tableOf c.y c.integer r := by
  obtain ⟨k, l, hc, ht, hk, -⟩ := regressionFind_ok B A E o o' c t h
  unfold chooseFraction at hc
  dsimp only [bind, Except.bind, pure, Except.pure] at hc
  cases hv : validate n with
  | error e => rw [hv] at hc; cases hc
  | ok _ =>
    rw [hv] at hc
    dsimp only at hc
    cases hi : cvPredictions (E.fit c.y c.kwargs) E.assignInitial (List.finRange n) 0 E.folds with
    | error e => rw [hi] at hc; cases hc
    | ok initial =>
      rw [hi] at hc
      dsimp only at hc
      split at hc
      · cases hc
      · rename_i kr hkr
        simp only [Except.ok.injEq, Prod.mk.injEq] at hc
        obtain ⟨hk', rfl⟩ := hc
        unfold RegressionFit.issueTable at ht
        dsimp only [bind, Except.bind, pure, Except.pure] at ht
        split at ht
        · cases ht
        · rename_i preds hp
          split at ht
          · cases ht
          · rename_i u hu
            split at ht
            · cases ht
            · rename_i scores hs
              have ht := (Except.ok.inj ht).symm
              refine ⟨u, ⟨flag A scores k, scores, preds, k⟩, hu, ?_, hk, ht⟩
              unfold findLabelIssues
              have h1 : initialPredictions (plainEnv E c.y u) c.kwargs = .ok initial := hi
              rw [h1]
              simp only [bind, Except.bind, pure, Except.pure]
              have h2 : findBestK (plainEnv E c.y u).folds
                  (Regression.searchCv (plainEnv E c.y u) (B.indices fun i => |initial i - c.y i|))
                  (plainEnv E c.y u).r2 c.coarse c.size = .ok kr := hkr
              rw [h2]
              simp only []
              have h3 : (if kr.2 ≤ (plainEnv E c.y u).r2 initial then 0 else kr.1) = k := hk'
              rw [h3]
              have h4 : cvPredictions ((plainEnv E c.y u).fit c.kwargs) (plainEnv E c.y u).assignFinal
                  (B.indices fun i => |initial i - c.y i|) k (plainEnv E c.y u).folds = .ok preds := hp
              rw [h4]
              simp only []
              have h5 : qualityScores A (fun i => ((preds i - c.y i : ℚ) : ℝ)) ((plainEnv E c.y u).uncertainty preds)
                  = some scores := hs
              rw [h5]

/-! ## C110: `fit` -/

theorem takeArray_mask (l : List Bool) (hl : l.length = n) :
    takeArray n (.mask (l.map (fun b => !b))) = .ok ((List.finRange n).filter (fun i : Fin n => !l[i.val])) := by
  dsimp only [takeArray]
  congr 1
  apply List.filter_congr
  intro i _
  have hi : i.val < l.length := hl ▸ i.isLt
  rw [List.getElem?_map, List.getElem?_eq_getElem hi]
  cases l[i.val] <;> rfl

theorem subsetLabels_mask (kind : Labels) (l : List Bool) (hl : l.length = n) :
    subsetLabels kind n (.mask (l.map (fun b => !b))) = (List.finRange n).filter (fun i : Fin n => !l[i.val]) := by
  have hf : (List.finRange n).filter (fun i => truthy (.mask (l.map (fun b => !b))) i.val)
      = (List.finRange n).filter (fun i : Fin n => !l[i.val]) := by
    have := takeArray_mask l hl
    exact Except.ok.inj this
  cases kind <;> dsimp only [subsetLabels] <;> exact hf

theorem subsetData_mask (kind : Features) (l : List Bool) (hl : l.length = n) :
    subsetData kind n (.mask (l.map (fun b => !b))) = .ok ((List.finRange n).filter (fun i : Fin n => !l[i.val])) := by
  cases kind <;> dsimp only [subsetData] <;> rw [takeArray_mask l hl]

theorem subsetWeights_mask (l : List Bool) (hl : l.length = n) (w : List ℚ) (hw : w.length = n) :
    subsetWeights n (.mask (l.map (fun b => !b))) w
      = .ok (((List.finRange n).filter (fun i : Fin n => !l[i.val])).map (fun i => w[i.val])) := by
  unfold subsetWeights
  rw [takeArray_mask l hl]
  dsimp only [bind, Except.bind]
  apply mapM_eq_map
  intro i _
  have hi : i.val < w.length := hw ▸ i.isLt
  simp only [List.getElem?_eq_getElem hi]

/-- The rows that are not flagged, in order. -/
def kept (flagged : Fin n → Bool) : List (Fin n) := (List.finRange n).filter (fun i => !flagged i)

/-- The final training when the column of flags holds booleans. -/
theorem finalTraining_bools (c : FitCall n κ) (t : Table) (flagged : Fin n → Bool)
    (ht : t.isIssue = .bools (List.ofFn flagged)) (hw : ∀ w, c.weights = some w → w.length = n) :
    finalTraining c t = .ok ⟨kept flagged, kept flagged, c.weights.map (fun w => (kept flagged).map
      (fun i => (w[i.val]?).getD 0))⟩ := by
  have hl : (List.ofFn flagged).length = n := List.length_ofFn
  have hk : (List.finRange n).filter (fun i : Fin n => !(List.ofFn flagged)[i.val]'(by rw [hl]; exact i.isLt))
      = kept flagged := by
    unfold kept
    apply List.filter_congr
    intro i _
    rw [List.getElem_ofFn]
  unfold finalTraining
  rw [ht]
  unfold invert
  dsimp only [bind, Except.bind, pure, Except.pure]
  rw [subsetData_mask _ _ hl, subsetLabels_mask _ _ hl, hk]
  dsimp only
  cases hcw : c.weights with
  | none => rfl
  | some w =>
    dsimp only
    have hw' := hw w hcw
    rw [subsetWeights_mask _ hl w hw', hk]
    dsimp only [Option.map]
    congr 3
    apply List.map_congr_left
    intro i _
    rw [List.getElem?_eq_getElem (by rw [hw']; exact i.isLt)]
    rfl

theorem checkWeights_ok (c : FitCall n κ) (h : checkWeights c = .ok ()) (w : List ℚ) (hw : c.weights = some w) :
    w.length = n := by
  unfold checkWeights at h
  rw [hw] at h
  by_contra hne
  dsimp only at h
  rw [if_pos hne] at h
  split_ifs at h

theorem finish_mask (o : Obj) (c : FitCall n κ) (l : List Bool) (hl : l.length = n) (hkind : c.labels ≠ .column) :
    finish o c (.mask l) = ({ o with table := some { isIssue := .bools l, given := some (List.ofFn c.y) } },
      finalTraining c { isIssue := .bools l, given := some (List.ofFn c.y) }) := by
  unfold finish processArg
  dsimp only
  rw [if_neg (by push Not; exact ⟨hl, hkind⟩)]

/-- What a successful call of `fit` did. -/
theorem regressionFit_ok (B : ArgSort ℚ) (A : ArgSort ℝ) (E : RegressionFit.Env n κ) (o o' : Obj) (c : FitCall n κ) (t : Training n)
    (h : RegressionFit.fit B A E o c = (o', .ok t)) :
    (∀ w, c.weights = some w → w.length = n) ∧ ∃ tb, o'.table = some tb ∧ finalTraining c tb = .ok t ∧
      tb.isIssue.length = n ∧ (∀ g, tb.given = some g → labelsDiffer c.labels c.y g = false) ∧
      match c.labelIssues with
      | none => ∃ o₁, RegressionFit.find B A E o c.toFindCall = (o₁, .ok tb) ∧ o'.k = o₁.k
      | some (.table tb') => tb = tb' ∧ o'.k = o.k
      | some (.mask l) => tb.isIssue = .bools l ∧ o'.k = o.k
      | some _ => False := by
  unfold RegressionFit.fit at h
  cases hv : validate n with
  | error e => rw [hv] at h; cases h
  | ok _ =>
    rw [hv] at h
    cases hw : checkWeights c with
    | error e => rw [hw] at h; cases h
    | ok u =>
      rw [hw] at h
      dsimp only [bind, Except.bind] at h
      refine ⟨checkWeights_ok c hw, ?_⟩
      have hfin : ∀ (o₁ : Obj) (tb : Table), finish o₁ c (.table tb) = (o', .ok t) →
          o'.table = some tb ∧ finalTraining c tb = .ok t ∧ tb.isIssue.length = n ∧
          (∀ g, tb.given = some g → labelsDiffer c.labels c.y g = false) ∧ o'.k = o₁.k := by
        intro o₁ tb hf
        unfold finish processArg at hf
        dsimp only at hf
        by_cases h1 : tb.isIssue.length ≠ n
        · rw [if_pos h1] at hf; cases hf
        · rw [if_neg h1] at hf
          by_cases h2 : tb.given.any (labelsDiffer c.labels c.y) = true
          · rw [if_pos h2] at hf; cases hf
          · rw [if_neg h2] at hf
            dsimp only at hf
            obtain ⟨rfl, hft⟩ := Prod.mk.inj hf
            refine ⟨rfl, hft, by push Not at h1; exact h1, ?_, rfl⟩
            intro g hg
            rw [hg] at h2
            simpa using h2
      cases hli : c.labelIssues with
      | none =>
        rw [hli] at h
        dsimp only at h
        rcases hfd : RegressionFit.find B A E o c.toFindCall with ⟨o₁, e | tb⟩
        · rw [hfd] at h; cases h
        · rw [hfd] at h
          dsimp only at h
          obtain ⟨a1, a2, a3, a4, a5⟩ := hfin o₁ tb h
          exact ⟨tb, a1, a2, a3, a4, o₁, rfl, a5⟩
      | some arg =>
        rw [hli] at h
        dsimp only at h
        cases arg with
        | table tb =>
          obtain ⟨a1, a2, a3, a4, a5⟩ := hfin o tb h
          exact ⟨tb, a1, a2, a3, a4, rfl, a5⟩
        | noColumn => cases h
        | notBool => cases h
        | other => cases h
        | mask l =>
          by_cases hc : l.length ≠ n ∨ c.labels = .column
          · unfold finish processArg at h
            dsimp only at h
            rw [if_pos hc] at h
            cases h
          · push Not at hc
            rw [finish_mask o c l hc.1 hc.2] at h
            obtain ⟨rfl, hft⟩ := Prod.mk.inj h
            refine ⟨_, rfl, hft, hc.1, ?_, rfl, rfl⟩
            intro g hg
            obtain rfl := Option.some.inj hg
            unfold labelsDiffer
            rw [if_neg hc.2]
            simp

/-- **C110.** Whatever happened before: if `fit` succeeds and the label issues were found by the object itself, or were
given as booleans, then the model is trained on exactly the examples that `get_label_issues` then reports as unflagged, each
once, in the given order and with its own label and weight. -/
theorem C110_trains_unflagged_partial (B : ArgSort ℚ) (A : ArgSort ℝ) (E : RegressionFit.Env n κ) (o o' : Obj)
    (c : FitCall n κ) (t : Training n) (h : RegressionFit.fit B A E o c = (o', .ok t))
    (hbool : ∀ tb, c.labelIssues = some (.table tb) → ∃ l, tb.isIssue = .bools l) :
    ∃ flagged : Fin n → Bool, (getLabelIssues o').map (·.isIssue) = some (.bools (List.ofFn flagged)) ∧
      (∀ i, i ∈ t.rows ↔ flagged i = false) ∧ t.rows.Pairwise (· < ·) ∧ t.labels = t.rows ∧
      (c.weights = none → t.weights = none) ∧
      (∀ w, c.weights = some w → w.length = n ∧ ∃ ws, t.weights = some ws ∧
        ws.map some = t.rows.map (fun i => w[i.val]?)) ∧
      (∀ l, c.labelIssues = some (.mask l) → l = List.ofFn flagged) ∧
      (∀ tb, c.labelIssues = some (.table tb) → getLabelIssues o' = some tb) ∧
      (c.labelIssues = none → ∃ o₁ tb, RegressionFit.find B A E o c.toFindCall = (o₁, .ok tb) ∧
        getLabelIssues o' = some tb ∧ o'.k = o₁.k) := by
  obtain ⟨hw, tb, h1, h2, h3, -, h5⟩ := regressionFit_ok B A E o o' c t h
  have hl : ∃ l, tb.isIssue = .bools l := by
    cases hli : c.labelIssues with
    | none =>
      rw [hli] at h5
      obtain ⟨o₁, hf, -⟩ := h5
      obtain ⟨u, r, -, -, -, rfl⟩ := find_plain B A E o o₁ _ tb hf
      exact ⟨_, rfl⟩
    | some arg =>
      rw [hli] at h5
      cases arg with
      | table tb' =>
        obtain ⟨rfl, -⟩ := h5
        exact hbool tb hli
      | mask l => exact ⟨l, h5.1⟩
      | noColumn => exact h5.elim
      | notBool => exact h5.elim
      | other => exact h5.elim
  obtain ⟨l, hl⟩ := hl
  have hlen : l.length = n := by rw [hl] at h3; exact h3
  subst hlen
  have hof : List.ofFn (fun i : Fin l.length => l[i.val]) = l := List.ofFn_getElem
  have hfl : tb.isIssue = .bools (List.ofFn (fun i : Fin l.length => l[i.val])) := by rw [hof, hl]
  rw [finalTraining_bools c tb _ hfl hw] at h2
  have h2 := Except.ok.inj h2
  subst h2
  refine ⟨fun i => l[i.val], by unfold getLabelIssues; rw [h1, ← hfl]; rfl, ?_, ?_, rfl, ?_, ?_, ?_, ?_, ?_⟩
  · intro i
    simp [kept]
  · exact (List.pairwise_lt_finRange _).filter _
  · intro hn; simp [hn]
  · intro w hcw
    have hwl := hw w hcw
    refine ⟨hwl, _, by rw [hcw]; rfl, ?_⟩
    rw [List.map_map]
    apply List.map_congr_left
    intro i _
    have hi : i.val < w.length := by rw [hwl]; exact i.isLt
    simp [List.getElem?_eq_getElem hi]
  · intro l' hl'
    rw [hl'] at h5
    have := h5.1
    rw [hl] at this
    rw [hof]
    exact (Column.bools.inj this).symm
  · intro tb' htb
    rw [htb] at h5
    unfold getLabelIssues
    rw [h1, h5.1]
  · intro hn
    rw [hn] at h5
    obtain ⟨o₁, hf, hk⟩ := h5
    exact ⟨o₁, tb, hf, h1, hk⟩

/-! ### Examples -/

/-- Four examples; the model predicts the number of its training examples; the score is minus the prediction for the first
example. -/
def fitEnv : RegressionFit.Env 4 Bool :=
  { fit := fun _ _ _ T _ => (T.length : ℚ), noKwargs := false, folds := 2, nBoot := 0, aleatoric := false
    assignInitial := fun q => q % 2, assignFinal := fun q => q % 2, assignSearch := fun _ q => q % 2
    assignBoot := fun _ q => q % 2, assignResidual := fun q => q % 2, r2 := fun _ p => -p 0 }

/-- Labels 0, 0, 0, 10 and a single candidate fraction of one quarter. -/
def fitCall : FitCall 4 Bool :=
  { y := ![0, 0, 0, 10], coarse := [1/4], size := 0, kwargs := true, weights := some [1, 2, 3, 4] }

theorem fitCall_fraction : chooseFraction (stableSort ℚ) fitEnv fitCall.toFindCall = .ok (1/4, [0, 1, 2, 3]) := by
  refine ok_of_toOption ?_
  decide +kernel

theorem fitCall_predictions : cvPredictions (fitEnv.fit fitCall.y fitCall.kwargs) fitEnv.assignFinal [0, 1, 2, 3] (1/4)
    fitEnv.folds = .ok ![1, 2, 1, 3/2] := by
  refine ok_of_toOption ?_
  decide +kernel

/-- Whatever uncertainty is found, the call finds issues with fraction one quarter. -/
theorem fitCall_find (A : ArgSort ℝ) (o : Obj) : ∃ tb,
    RegressionFit.find (stableSort ℚ) A fitEnv o fitCall.toFindCall = ({ table := some tb, k := some (1/4) }, .ok tb) ∧
    tb.given = some [0, 0, 0, 10] ∧ ∃ flagged : Fin 4 → Bool, tb.isIssue = .bools (List.ofFn flagged) := by
  unfold RegressionFit.find
  rw [fitCall_fraction]
  dsimp only
  have hu : resolveUncertainty fitEnv fitCall.y ![1, 2, 1, 3/2] fitCall.uncertainty = .ok (fun _ => 0 + 0) := rfl
  unfold RegressionFit.issueTable
  rw [fitCall_predictions]
  dsimp only [bind, Except.bind]
  rw [hu]
  dsimp only
  obtain ⟨med, hmed⟩ := Option.isSome_iff_exists.mp (npMedian_isSome A ((List.finRange 4).map
    (adjusted (fun i : Fin 4 => (((![1, 2, 1, 3/2] : Fin 4 → ℚ) i - fitCall.y i : ℚ) : ℝ)) (fun _ => 0 + 0)))
    (by simp))
  unfold qualityScores
  rw [hmed]
  refine ⟨_, rfl, ?_, _, rfl⟩
  simp [fitCall, List.ofFn_succ]

/-- **C110.** Calling `fit` without label issues is calling `find_label_issues` and then `fit` with its result. -/
theorem C110_same_as_given (B : ArgSort ℚ) (A : ArgSort ℝ) (E E' : RegressionFit.Env n κ) (o o₁ : Obj) (c : FitCall n κ)
    (tb : Table) (hn : 2 ≤ n) (hw : checkWeights c = .ok ()) (hc : c.labelIssues = none)
    (h : RegressionFit.find B A E o c.toFindCall = (o₁, .ok tb)) :
    RegressionFit.fit B A E o c = RegressionFit.fit B A E' o₁ { c with labelIssues := some (.table tb) } := by
  have hv : validate n = .ok () := by
    unfold validate
    rw [if_neg (by omega), if_neg (by omega)]
  have hw' : checkWeights { c with labelIssues := some (.table tb) } = .ok () := hw
  unfold RegressionFit.fit
  rw [hv, hw, hw', hc, h]
  rfl

/-- **C110.** If issues can be found and the weights fit, `fit` succeeds, for labels in one dimension. -/
theorem C110_succeeds_partial (B : ArgSort ℚ) (A : ArgSort ℝ) (E : RegressionFit.Env n κ) (o o₁ : Obj) (c : FitCall n κ)
    (tb : Table) (hn : 2 ≤ n) (hkw : c.weightInKwargs = false)
    (hw : ∀ w, c.weights = some w → w.length = n ∧ c.takesWeight = true) (hkind : c.labels ≠ .column)
    (hc : c.labelIssues = none) (h : RegressionFit.find B A E o c.toFindCall = (o₁, .ok tb)) :
    ∃ o' t, RegressionFit.fit B A E o c = (o', .ok t) := by
  have hcw : checkWeights c = .ok () := by
    unfold checkWeights
    rw [if_neg (by rw [hkw]; simp)]
    cases hww : c.weights with
    | none => rfl
    | some w =>
      obtain ⟨h1, h2⟩ := hw w hww
      dsimp only
      rw [if_neg (by simpa using h2), if_neg (by simpa using h1)]
  rw [C110_same_as_given B A E E o o₁ c tb hn hcw hc h]
  have hv : validate n = .ok () := by
    unfold validate
    rw [if_neg (by omega), if_neg (by omega)]
  have hcw' : checkWeights { c with labelIssues := some (.table tb) } = .ok () := hcw
  obtain ⟨u, r, -, -, -, htb⟩ := find_plain B A E o o₁ _ tb h
  unfold RegressionFit.fit
  rw [hv, hcw']
  dsimp only [bind, Except.bind]
  unfold finish processArg
  dsimp only
  have hlen : tb.isIssue.length = n := by rw [htb]; exact List.length_ofFn
  have hgiven : tb.given = some (List.ofFn c.y) := by rw [htb]; rfl
  rw [if_neg (by push Not; exact hlen), if_neg (by
    rw [hgiven]
    unfold labelsDiffer
    rw [Option.any_some, if_neg hkind]
    simp)]
  refine ⟨{ o₁ with table := some tb }, ⟨kept r.flags, kept r.flags, c.weights.map (fun w => (kept r.flags).map
    (fun i => (w[i.val]?).getD 0))⟩, ?_⟩
  dsimp only
  rw [finalTraining_bools { c with labelIssues := some (.table tb) } tb r.flags (by rw [htb]; rfl)
    (fun w hw' => (hw w hw').1)]

/-- In the example `fit` succeeds, with weights. -/
example (A : ArgSort ℝ) : ∃ o' t, RegressionFit.fit (stableSort ℚ) A fitEnv {} fitCall = (o', .ok t) := by
  obtain ⟨tb, h, -, -⟩ := fitCall_find A {}
  exact C110_succeeds_partial _ _ _ _ _ _ tb (by norm_num) rfl
    (fun w hw => by obtain rfl := Option.some.inj hw; exact ⟨rfl, rfl⟩) (by decide) rfl h

/-- **C110 fails** for labels in an array of shape `(n, 1)`, which `find_label_issues` accepts: after all the
cross-validation `fit` compares every found label with every given one (`learn.py:855-857`), and raises unless all labels
are equal. -/
theorem C110_not_column (B : ArgSort ℚ) (A : ArgSort ℝ) (E : RegressionFit.Env n κ) (o o₁ : Obj) (c : FitCall n κ)
    (tb : Table) (hkind : c.labels = .column) (hy : ∃ i j, c.y i ≠ c.y j) (hc : c.labelIssues = none)
    (h : RegressionFit.find B A E o c.toFindCall = (o₁, .ok tb)) :
    ∃ o' e, RegressionFit.fit B A E o c = (o', .error e) := by
  rcases hf : RegressionFit.fit B A E o c with ⟨o', e | t⟩
  · exact ⟨o', e, rfl⟩
  · exfalso
    obtain ⟨-, tb', -, -, -, h4, h5⟩ := regressionFit_ok B A E o o' c t hf
    rw [hc] at h5
    obtain ⟨o₂, h5, -⟩ := h5
    rw [h] at h5
    obtain ⟨-, h5⟩ := Prod.mk.inj h5
    obtain rfl := Except.ok.inj h5
    obtain ⟨u, r, -, -, -, htb⟩ := find_plain B A E o o₁ _ tb h
    have := h4 (List.ofFn c.y) (by rw [htb]; rfl)
    unfold labelsDiffer at this
    rw [if_pos hkind, List.any_eq_false] at this
    obtain ⟨i, j, hij⟩ := hy
    have h6 := this (c.y i) (List.mem_ofFn.mpr ⟨i, rfl⟩)
    rw [Bool.not_eq_true, List.any_eq_false] at h6
    exact h6 (c.y j) (List.mem_ofFn.mpr ⟨j, rfl⟩) (by simpa using hij)

/-- In the example, labels of shape `(4, 1)` make `fit` raise. -/
example (A : ArgSort ℝ) : ∃ o' e,
    RegressionFit.fit (stableSort ℚ) A fitEnv {} { fitCall with labels := .column } = (o', .error e) := by
  obtain ⟨tb, h, -, -⟩ := fitCall_find A {}
  exact C110_not_column _ _ _ _ _ { fitCall with labels := .column } tb rfl ⟨0, 3, by decide +kernel⟩ rfl h

/-- Three examples of which the second is flagged, by a column of zeros and ones. -/
def zeroOneCall (kind : Labels) : FitCall 3 Unit :=
  { y := ![5, 6, 7], kwargs := (), labels := kind, labelIssues := some (.table { isIssue := .ints [0, 1, 0] }) }

theorem zeroOne_fit (B : ArgSort ℚ) (A : ArgSort ℝ) (E : RegressionFit.Env 3 Unit) (o : Obj) (kind : Labels) :
    (RegressionFit.fit B A E o (zeroOneCall kind)).2 = finalTraining (zeroOneCall kind) { isIssue := .ints [0, 1, 0] } :=
  rfl

/-- **C110 fails** for a data frame whose column `is_label_issue` holds 0 and 1 instead of booleans: `np.invert` turns the
column into -1 and -2, which select the last two rows. The model is trained on the flagged example and not on the first
one. -/
theorem C110_not_zero_one (B : ArgSort ℚ) (A : ArgSort ℝ) (E : RegressionFit.Env 3 Unit) (o : Obj) :
    (RegressionFit.fit B A E o (zeroOneCall .array)).2 = .ok ⟨[2, 1, 2], [2, 1, 2], none⟩ := by
  rw [zeroOne_fit]
  refine ok_of_toOption ?_
  decide +kernel

/-- **C110 fails**: if moreover the labels are in a list or a series, the rows and the labels no longer belong together. -/
theorem C110_not_zero_one_list (B : ArgSort ℚ) (A : ArgSort ℝ) (E : RegressionFit.Env 3 Unit) (o : Obj) :
    (RegressionFit.fit B A E o (zeroOneCall .list)).2 = .ok ⟨[2, 1, 2], [0, 1, 2], none⟩ ∧
      (RegressionFit.fit B A E o (zeroOneCall .series)).2 = .ok ⟨[2, 1, 2], [0, 1, 2], none⟩ := by
  rw [zeroOne_fit, zeroOne_fit]
  refine ⟨ok_of_toOption ?_, ok_of_toOption ?_⟩ <;> decide +kernel

/-- **C110 fails**: with two examples of which the first is flagged by 1, nothing is removed. -/
theorem C110_not_zero_one_two (B : ArgSort ℚ) (A : ArgSort ℝ) (E : RegressionFit.Env 2 Unit) (o : Obj) :
    (RegressionFit.fit B A E o
      { y := ![5, 6], kwargs := (), labels := .array, labelIssues := some (.table { isIssue := .ints [1, 0] }) }).2 =
      .ok ⟨[0, 1], [0, 1], none⟩ := by
  refine (rfl : _ = finalTraining
    ({ y := ![5, 6], kwargs := (), labels := .array, labelIssues := some (.table { isIssue := .ints [1, 0] }) } :
      FitCall 2 Unit) { isIssue := .ints [1, 0] }).trans ?_
  refine ok_of_toOption ?_
  decide +kernel

/-- **C110**: no labels and a single label are refused, each with its own message, whatever else is passed, and the object
stays as it was. -/
theorem C110_refused (B : ArgSort ℚ) (A : ArgSort ℝ) (o : Obj) :
    (∀ (E : RegressionFit.Env 0 κ) (c : FitCall 0 κ), RegressionFit.fit B A E o c = (o, .error "y cannot be empty array.")) ∧
      ∀ (E : RegressionFit.Env 1 κ) (c : FitCall 1 κ),
        RegressionFit.fit B A E o c = (o, .error "Expected 1-Dimensional inputs for y, got 0 dimensions.") :=
  ⟨fun _ _ => rfl, fun _ _ => rfl⟩

/-- Which row a position selects: those from 0 count from the first row, the negative ones from the last row. -/
theorem position_iff {n : ℕ} (z : ℤ) (i : Fin n) :
    position n z = .ok i ↔ z = (i.val : ℤ) ∨ z = (i.val : ℤ) - n := by
  unfold position
  have hi := i.isLt
  by_cases h : 0 ≤ z ∧ z < n
  · rw [dif_pos h]
    constructor
    · intro e; rw [← Except.ok.inj e]; left; simp only []; omega
    · rintro (e | e)
      · congr 1; apply Fin.ext; simp only []; omega
      · omega
  · rw [dif_neg h]
    by_cases h' : -(n : ℤ) ≤ z ∧ z < 0
    · rw [dif_pos h']
      constructor
      · intro e; rw [← Except.ok.inj e]; right; simp only []; omega
      · rintro (e | e)
        · omega
        · congr 1; apply Fin.ext; simp only []; omega
    · rw [dif_neg h']
      constructor
      · intro e; cases e
      · rintro (e | e) <;> omega

/-! ### Histories -/

/-- **C110.** After a successful search the object reports its result (unless told not to store it), whatever was there
before, and `k` is the fraction: `⌈n k⌉` examples are flagged, and they have the lowest scores. -/
theorem C110_reports_found (B : ArgSort ℚ) (A : ArgSort ℝ) (E : RegressionFit.Env n κ) (events : List (Event κ))
    (c : FindCall n κ) (hs : c.saveSpace = false) (o₁ : Obj) (tb : Table)
    (h : RegressionFit.find B A E (after B A events) c = (o₁, .ok tb)) :
    getLabelIssues (after B A (events ++ [.find n E c])) = some tb ∧ tb.given = some (List.ofFn c.y) ∧
    ∃ k, (after B A (events ++ [.find n E c])).k = some k ∧ ∃ (flagged : Fin n → Bool) (scores : Fin n → ℝ),
      tb.isIssue = .bools (List.ofFn flagged) ∧ tb.quality = some (List.ofFn scores) ∧
      (((List.finRange n).countP flagged : ℕ) : ℤ) = ⌈(n : ℚ) * k⌉ ∧
      ∀ i j, flagged i = true → flagged j = false → scores i ≤ scores j := by
  have hstep : after B A (events ++ [.find n E c]) = o₁ := by
    have hs : after B A (events ++ [.find n E c]) = (RegressionFit.find B A E (after B A events) c).1 := by
      unfold after
      rw [List.foldl_append, List.foldl_cons, List.foldl_nil]
      rfl
    rw [hs, h]
  obtain ⟨k, l, -, -, hk, ht⟩ := regressionFind_ok B A E _ o₁ c tb h
  obtain ⟨u, r, -, hr, hk', htb⟩ := find_plain B A E _ o₁ c tb h
  obtain ⟨h1, h2⟩ := C51_flags_lowest B A _ _ _ _ _ r hr
  rw [hstep]
  refine ⟨by unfold getLabelIssues; rw [ht, hs]; rfl, by rw [htb]; rfl, r.k, hk', r.flags, r.scores, ?_, ?_, h1, h2⟩
  · rw [htb]; rfl
  · rw [htb]; rfl

/-- **C110.** After `save_space` the object is as new: what follows does not depend on what was before. -/
theorem C110_save_space (B : ArgSort ℚ) (A : ArgSort ℝ) (before later : List (Event κ)) :
    after B A (before ++ [.saveSpace] ++ later) = after B A later := by
  unfold after
  rw [List.foldl_append, List.foldl_append]
  rfl

/-- **C110.** A call that raises before the label issues are determined does not change what is reported; a search that
raises never does. -/
theorem C110_failed_search (B : ArgSort ℚ) (A : ArgSort ℝ) (E : RegressionFit.Env n κ) (o o₁ : Obj) (c : FindCall n κ)
    (e : String) (h : RegressionFit.find B A E o c = (o₁, .error e)) : getLabelIssues o₁ = getLabelIssues o := by
  unfold RegressionFit.find at h
  split at h
  · cases h; rfl
  · dsimp only at h
    split at h
    · cases h; rfl
    · cases h

/-- **C110.** The issues reported after any history belong to the data of one call in it: they have as many rows as that
call had examples, and the labels in them are those that were given (for one-dimensional labels). -/
theorem C110_one_data_set (B : ArgSort ℚ) (A : ArgSort ℝ) (events : List (Event κ)) (tb : Table)
    (h : getLabelIssues (after B A events) = some tb) :
    (∃ n E c, Event.find n E c ∈ events ∧ tb.isIssue.length = n ∧ tb.given = some (List.ofFn c.y)) ∨
    ∃ n E c, Event.fit n E c ∈ events ∧ tb.isIssue.length = n ∧
      ∀ g, tb.given = some g → c.labels ≠ .column → g = List.ofFn c.y := by
  induction events using List.reverseRecOn with
  | nil => cases h
  | append_singleton events ev ih =>
    have hstep : after B A (events ++ [ev]) = step B A (after B A events) ev := by
      unfold after
      rw [List.foldl_append, List.foldl_cons, List.foldl_nil]
    have hold : getLabelIssues (after B A events) = some tb →
        (∃ n E c, Event.find n E c ∈ events ++ [ev] ∧ tb.isIssue.length = n ∧ tb.given = some (List.ofFn c.y)) ∨
        ∃ n E c, Event.fit n E c ∈ events ++ [ev] ∧ tb.isIssue.length = n ∧
          ∀ g, tb.given = some g → c.labels ≠ .column → g = List.ofFn c.y := by
      intro ho
      rcases ih ho with ⟨n, E, c, hm, hr⟩ | ⟨n, E, c, hm, hr⟩
      · exact Or.inl ⟨n, E, c, List.mem_append_left _ hm, hr⟩
      · exact Or.inr ⟨n, E, c, List.mem_append_left _ hm, hr⟩
    rw [hstep] at h
    generalize after B A events = o at *
    have hfound : ∀ n E (c : FindCall n κ) o₁ t, RegressionFit.find B A E o c = (o₁, .ok t) →
        t.isIssue.length = n ∧ t.given = some (List.ofFn c.y) := by
      intro n E c o₁ t hf
      obtain ⟨u, r, -, -, -, htb⟩ := find_plain B A E o o₁ c t hf
      rw [htb]
      exact ⟨List.length_ofFn, rfl⟩
    cases ev with
    | saveSpace => cases h
    | find n E c =>
      rcases hf : RegressionFit.find B A E o c with ⟨o₁, e | t⟩
      · have hs : step B A o (.find n E c) = o₁ := by dsimp only [step]; rw [hf]
        rw [hs, C110_failed_search B A E o o₁ c e hf] at h
        exact hold h
      · have hs : step B A o (.find n E c) = o₁ := by dsimp only [step]; rw [hf]
        rw [hs] at h
        obtain ⟨k, l, -, -, -, ht⟩ := regressionFind_ok B A E o o₁ c t hf
        unfold getLabelIssues at h hold
        rw [ht] at h
        by_cases hsv : c.saveSpace = true
        · rw [if_pos hsv] at h
          exact hold h
        · rw [if_neg hsv] at h
          obtain rfl := Option.some.inj h
          exact Or.inl ⟨n, E, c, by simp, hfound n E c o₁ t hf⟩
    | fit n E c =>
      have hs : step B A o (.fit n E c) = (RegressionFit.fit B A E o c).1 := rfl
      rw [hs] at h
      have hnew : tb.isIssue.length = n → (∀ g, tb.given = some g → c.labels ≠ .column → g = List.ofFn c.y) →
          (∃ n' E' c', Event.find n' E' c' ∈ events ++ [Event.fit n E c] ∧ tb.isIssue.length = n' ∧
            tb.given = some (List.ofFn c'.y)) ∨
          ∃ n' E' c', Event.fit n' E' c' ∈ events ++ [Event.fit n E c] ∧ tb.isIssue.length = n' ∧
            ∀ g, tb.given = some g → c'.labels ≠ .column → g = List.ofFn c'.y :=
        fun h1 h2 => Or.inr ⟨n, E, c, by simp, h1, h2⟩
      have hfin : ∀ (o₁ : Obj) (arg : Arg), getLabelIssues (finish o₁ c arg).1 = some tb →
          getLabelIssues o₁ = some tb ∨ tb.isIssue.length = n ∧
          ∀ g, tb.given = some g → c.labels ≠ .column → g = List.ofFn c.y := by
        intro o₁ arg ha
        unfold finish at ha
        cases hp : processArg c.labels c.y arg with
        | error e => rw [hp] at ha; exact Or.inl ha
        | ok t =>
          rw [hp] at ha
          obtain rfl := Option.some.inj ha
          right
          unfold processArg at hp
          split at hp
          · cases hp
          · split_ifs at hp with h1 h2
            obtain rfl := Except.ok.inj hp
            refine ⟨by push Not at h1; exact h1, ?_⟩
            intro g hg hk
            rw [hg, Option.any_some, Bool.not_eq_true] at h2
            unfold labelsDiffer at h2
            rw [if_neg hk] at h2
            simpa using h2
          · cases hp
          · split_ifs at hp with h1
            obtain rfl := Except.ok.inj hp
            push Not at h1
            exact ⟨h1.1, fun g hg _ => (Option.some.inj hg).symm⟩
          · cases hp
      unfold RegressionFit.fit at h
      cases hv : (do validate n; checkWeights c) with
      | error e => rw [hv] at h; exact hold h
      | ok x =>
        rw [hv] at h
        dsimp only at h
        cases hli : c.labelIssues with
        | some arg =>
          rw [hli] at h
          rcases hfin o arg h with h1 | ⟨h1, h2⟩
          · exact hold h1
          · exact hnew h1 h2
        | none =>
          rw [hli] at h
          dsimp only at h
          rcases hf : RegressionFit.find B A E o c.toFindCall with ⟨o₁, e | t⟩
          · rw [hf] at h
            dsimp only at h
            rw [C110_failed_search B A E o o₁ _ e hf] at h
            exact hold h
          · rw [hf] at h
            dsimp only at h
            rcases hfin o₁ _ h with h1 | ⟨h1, h2⟩
            · obtain ⟨k, l, -, -, -, ht⟩ := regressionFind_ok B A E o o₁ _ t hf
              unfold getLabelIssues at h1 hold
              rw [ht] at h1
              by_cases hsv : c.saveSpace = true
              · rw [if_pos hsv] at h1
                exact hold h1
              · rw [if_neg hsv] at h1
                obtain rfl := Option.some.inj h1
                obtain ⟨h2, h3⟩ := hfound n E c.toFindCall o₁ t hf
                exact hnew h2 (fun g hg _ => by rw [h3] at hg; exact (Option.some.inj hg).symm)
            · exact hnew h1 h2

/-- In the example the issues found are reported. -/
example (A : ArgSort ℝ) : ∃ tb,
    getLabelIssues (after (stableSort ℚ) A [.saveSpace, .find 4 fitEnv fitCall.toFindCall]) = some tb ∧
    tb.given = some [0, 0, 0, 10] := by
  obtain ⟨tb, h, h', -⟩ := fitCall_find A {}
  exact ⟨tb, (C110_reports_found (stableSort ℚ) A fitEnv [.saveSpace] fitCall.toFindCall rfl _ tb h).1, h'⟩

/-- **C110 fails** for `k`: label issues given to `fit` replace the reported ones, but `k` stays the fraction found for
other data, or is absent. -/
theorem C110_not_fraction (A : ArgSort ℝ) : ∃ (events : List (Event Bool)) (tb : Table),
    getLabelIssues (after (stableSort ℚ) A events) = some tb ∧ tb.isIssue = .bools [true, true, true, false] ∧
    (after (stableSort ℚ) A events).k = some (1/4) := by
  obtain ⟨tb, h, -, -⟩ := fitCall_find A {}
  refine ⟨[.find 4 fitEnv fitCall.toFindCall,
    .fit 4 fitEnv { fitCall with labelIssues := some (.mask [true, true, true, false]) }],
    { isIssue := .bools [true, true, true, false], given := some (List.ofFn fitCall.y) }, ?_⟩
  unfold after
  rw [List.foldl_cons, List.foldl_cons, List.foldl_nil]
  unfold step
  dsimp only
  rw [h]
  exact ⟨rfl, rfl, rfl⟩

/-- **C110 fails** for a call that raises: with an array of uncertainties of the wrong length `find_label_issues` raises, but
has already replaced `k`. -/
theorem C110_not_unchanged (A : ArgSort ℝ) (tb : Table) : ∃ o₁ e,
    RegressionFit.find (stableSort ℚ) A fitEnv { table := some tb, k := some 0 }
      { fitCall.toFindCall with uncertainty := .array [1] } = (o₁, .error e) ∧ o₁.k = some (1/4) := by
  have hf : chooseFraction (stableSort ℚ) fitEnv { fitCall.toFindCall with uncertainty := .array [1] }
    = .ok (1/4, [0, 1, 2, 3]) := fitCall_fraction
  unfold RegressionFit.find
  rw [hf]
  dsimp only
  unfold RegressionFit.issueTable
  dsimp only
  rw [fitCall_predictions]
  exact ⟨_, _, rfl, rfl⟩

/-- **C110 fails** for the column `predicted_label` with integer labels: the predictions 1, 2, 1 and 1.5 are reported as 1,
2, 1 and 1, cut off instead of rounded. -/
theorem C110_not_predicted (A : ArgSort ℝ) (o : Obj) : ∃ tb o',
    RegressionFit.find (stableSort ℚ) A fitEnv o { fitCall.toFindCall with integer := true } = (o', .ok tb) ∧
    tb.predicted = some [1, 2, 1, 1] := by
  have hf : chooseFraction (stableSort ℚ) fitEnv { fitCall.toFindCall with integer := true }
    = .ok (1/4, [0, 1, 2, 3]) := fitCall_fraction
  unfold RegressionFit.find
  rw [hf]
  dsimp only
  unfold RegressionFit.issueTable
  dsimp only
  rw [fitCall_predictions]
  dsimp only [bind, Except.bind]
  have hu : resolveUncertainty fitEnv fitCall.y ![1, 2, 1, 3/2] fitCall.uncertainty = .ok (fun _ => 0 + 0) := rfl
  rw [hu]
  dsimp only
  obtain ⟨med, hmed⟩ := Option.isSome_iff_exists.mp (npMedian_isSome A ((List.finRange 4).map
    (adjusted (fun i : Fin 4 => (((![1, 2, 1, 3/2] : Fin 4 → ℚ) i - fitCall.y i : ℚ) : ℝ)) (fun _ => 0 + 0)))
    (by simp))
  unfold qualityScores
  rw [hmed]
  refine ⟨_, _, rfl, ?_⟩
  simp only [Option.some.injEq]
  decide +kernel

/-! ## C111: uncertainties -/

theorem variance_nonneg (l : List ℚ) : 0 ≤ variance l := by
  unfold variance
  refine div_nonneg (List.sum_nonneg ?_) (Nat.cast_nonneg _)
  intro x hx
  obtain ⟨y, -, rfl⟩ := List.mem_map.mp hx
  exact sq_nonneg _

theorem sum_sq_eq_zero (l : List ℚ) (m : ℚ) (h : (l.map (fun x => (x - m) ^ 2)).sum = 0) : ∀ x ∈ l, x = m := by
  induction l with
  | nil => simp
  | cons a l ih =>
    rw [List.map_cons, List.sum_cons] at h
    have h1 : 0 ≤ (l.map (fun x => (x - m) ^ 2)).sum := by
      apply List.sum_nonneg
      intro x hx
      obtain ⟨y, -, rfl⟩ := List.mem_map.mp hx
      exact sq_nonneg _
    have h2 : 0 ≤ (a - m) ^ 2 := sq_nonneg _
    have h3 : (a - m) ^ 2 = 0 := by linarith
    have h4 : a - m = 0 := by simpa using h3
    intro x hx
    rcases List.mem_cons.mp hx with rfl | hx
    · linarith
    · exact ih (by linarith) x hx

theorem variance_eq_zero_iff (l : List ℚ) : variance l = 0 ↔ ∀ x ∈ l, ∀ y ∈ l, x = y := by
  cases hl : l with
  | nil => simp [variance]
  | cons a r =>
    rw [← hl]
    have hpos : (0 : ℚ) < (l.length : ℚ) := by rw [hl]; simp; positivity
    constructor
    · intro h x hx y hy
      unfold variance at h
      dsimp only at h
      rcases div_eq_zero_iff.mp h with h | h
      · rw [sum_sq_eq_zero l _ h x hx, sum_sq_eq_zero l _ h y hy]
      · rw [h] at hpos; exact absurd hpos (lt_irrefl _)
    · intro h
      have hc : ∀ x ∈ l, x = a := fun x hx => h x hx a (by rw [hl]; simp)
      have hrep : l = List.replicate l.length a := List.eq_replicate_of_mem hc
      have hmean : l.sum / (l.length : ℚ) = a := by
        have : l.sum = (l.length : ℚ) * a := by
          conv_lhs => rw [hrep]
          simp
        rw [this]
        field_simp
      unfold variance
      dsimp only
      rw [hmean]
      have : (l.map (fun x => (x - a) ^ 2)).sum = 0 := by
        apply List.sum_eq_zero
        intro x hx
        obtain ⟨y, hy, rfl⟩ := List.mem_map.mp hx
        rw [hc y hy]
        simp
      rw [this, zero_div]

theorem spread_nonneg (l : List ℚ) : 0 ≤ spread l := Real.sqrt_nonneg _

theorem spread_eq_zero_iff (l : List ℚ) : spread l = 0 ↔ ∀ x ∈ l, ∀ y ∈ l, x = y := by
  unfold spread
  rw [Real.sqrt_eq_zero (by exact_mod_cast variance_nonneg l), Rat.cast_eq_zero, variance_eq_zero_iff]

theorem cvPredictions_exists (fit : Fit n) (assign : ℕ → ℕ) (folds : ℕ) (h : folds ≤ n) :
    ∃ p, cvPredictions fit assign (List.finRange n) 0 folds = .ok p := by
  unfold cvPredictions
  rw [if_neg (by norm_num)]
  dsimp only
  rw [if_neg (by simp; exact h)]
  exact ⟨_, rfl⟩

/-- **C111.** With at least two examples, and at least as many as folds, the uncertainties can be estimated: the estimate
never makes the search fail. -/
theorem C111_exists (E : RegressionFit.Env n κ) (y predictions : Fin n → ℚ) (hn : 2 ≤ n) (hf : E.folds ≤ n) :
    ∃ u, resolveUncertainty E y predictions .estimate = .ok u := by
  have hv : validate n = .ok () := by
    unfold validate
    rw [if_neg (by omega), if_neg (by omega)]
  have he : ∃ e, epistemicUncertainty E y (some predictions) = .ok e := by
    unfold epistemicUncertainty
    rw [hv]
    dsimp only [bind, Except.bind]
    split_ifs with h0
    · exact ⟨_, rfl⟩
    · have hb : ∃ b, bootPredictions E y = .ok b := by
        unfold bootPredictions
        choose p hp using fun t => cvPredictions_exists (E.fit y E.noKwargs) (E.assignBoot t) 2 hn
        exact ⟨_, mapM_eq_map _ _ p (fun t _ => hp t)⟩
      obtain ⟨b, hb⟩ := hb
      rw [hb]
      exact ⟨_, rfl⟩
  obtain ⟨e, he⟩ := he
  have ha : ∃ a, aleatoricUncertainty E (fun i => predictions i - y i) = .ok a := by
    unfold aleatoricUncertainty
    rw [hv]
    dsimp only [bind, Except.bind]
    obtain ⟨p, hp⟩ := cvPredictions_exists (E.fit (fun i => predictions i - y i) E.noKwargs) E.assignResidual E.folds hf
    rw [hp]
    exact ⟨_, rfl⟩
  obtain ⟨a, ha⟩ := ha
  unfold resolveUncertainty
  dsimp only [bind, Except.bind]
  rw [he]
  dsimp only
  split_ifs
  · rw [ha]
    exact ⟨_, rfl⟩
  · exact ⟨_, rfl⟩

theorem mapM_ok_image {α β : Type} (f : α → Except String β) :
    ∀ (l : List α) (r : List β), l.mapM f = .ok r → ∀ x ∈ l, ∃ y ∈ r, f x = .ok y := by
  intro l
  induction l with
  | nil => intro r _ x hx; cases hx
  | cons a l ih =>
    intro r h x hx
    rw [List.mapM_cons] at h
    dsimp only [bind, Except.bind, pure, Except.pure] at h
    cases ha : f a with
    | error e => rw [ha] at h; cases h
    | ok b =>
      rw [ha] at h
      dsimp only at h
      cases hl : l.mapM f with
      | error e => rw [hl] at h; cases h
      | ok bs =>
        rw [hl] at h
        have h := Except.ok.inj h
        subst h
        rcases List.mem_cons.mp hx with rfl | hx
        · exact ⟨b, by simp, ha⟩
        · obtain ⟨y, hy, hf⟩ := ih bs hl x hx
          exact ⟨y, List.mem_cons_of_mem _ hy, hf⟩

/-- **C111.** The epistemic uncertainty of an example is never negative, and it is zero exactly if the repeated
cross-validations (if there are any) all predict for it what the given predictions say. -/
theorem C111_epistemic (E : RegressionFit.Env n κ) (y predictions : Fin n → ℚ) (e : Fin n → ℝ)
    (h : epistemicUncertainty E y (some predictions) = .ok e) (i : Fin n) :
    0 ≤ e i ∧ (e i = 0 ↔ ∀ t < E.nBoot, ∃ p,
      cvPredictions (E.fit y E.noKwargs) (E.assignBoot t) (List.finRange n) 0 2 = .ok p ∧ p i = predictions i) := by
  unfold epistemicUncertainty at h
  dsimp only [bind, Except.bind] at h
  cases hv : validate n with
  | error e => rw [hv] at h; cases h
  | ok _ =>
    rw [hv] at h
    dsimp only at h
    split_ifs at h with h0
    · have h := Except.ok.inj h
      subst h
      refine ⟨le_rfl, fun _ t ht => ?_, fun _ => rfl⟩
      rw [h0] at ht
      exact absurd ht (by omega)
    · cases hb : bootPredictions E y with
      | error e => rw [hb] at h; cases h
      | ok b =>
        rw [hb] at h
        have h := Except.ok.inj h
        subst h
        refine ⟨spread_nonneg _, ?_⟩
        rw [spread_eq_zero_iff]
        unfold bootPredictions at hb
        have hall : ∀ t < E.nBoot, ∃ p ∈ b,
            cvPredictions (E.fit y E.noKwargs) (E.assignBoot t) (List.finRange n) 0 2 = .ok p := by
          intro t ht
          exact mapM_ok_image _ _ _ hb t (List.mem_range.mpr ht)
        constructor
        · intro hz t ht
          obtain ⟨p, hpb, hp⟩ := hall t ht
          refine ⟨p, hp, hz _ ?_ _ ?_⟩
          · exact List.mem_map_of_mem (List.mem_append_left _ hpb)
          · exact List.mem_map_of_mem (f := fun p : Fin n → ℚ => p i) (List.mem_append_right _ (by simp))
        · intro hz
          have hp : ∀ x ∈ (b ++ (some predictions).toList).map (fun p => p i), x = predictions i := by
            intro x hx
            obtain ⟨p, hpm, rfl⟩ := List.mem_map.mp hx
            rcases List.mem_append.mp hpm with hpb | hpp
            · obtain ⟨t, ht, hpt⟩ := mapM_ok_mem _ _ _ hb p hpb
              obtain ⟨p', hp', he⟩ := hz t (List.mem_range.mp ht)
              rw [hpt] at hp'
              rw [Except.ok.inj hp', he]
            · simp at hpp
              rw [hpp]
          intro x hx x' hx'
          rw [hp x hx, hp x' hx']

/-- The example has two repetitions with different folds that agree with the predictions for some examples only. -/
def bootEnv : RegressionFit.Env 4 Unit :=
  { fit := fun y _ _ T _ => (T.map y).sum / (T.length : ℚ), noKwargs := (), folds := 2, nBoot := 2, aleatoric := true
    assignInitial := fun q => q % 2, assignFinal := fun q => q % 2, assignSearch := fun _ q => q % 2
    assignBoot := fun t q => if t = 0 then q % 2 else q / 2, assignResidual := fun q => q % 2
    r2 := fun y p => 1 - ((List.finRange 4).map (fun i => (y i - p i) ^ 2)).sum / (4 * variance (List.ofFn y)) }

theorem bootEnv_predictions : bootPredictions bootEnv ![0, 0, 0, 10] = .ok [![5, 0, 5, 0], ![5, 5, 0, 0]] := by
  refine ok_of_toOption ?_
  decide +kernel

example : ∃ e, epistemicUncertainty bootEnv ![0, 0, 0, 10] (some ![5, 0, 0, 0]) = .ok e ∧ e 0 = 0 ∧ e 1 ≠ 0 := by
  unfold epistemicUncertainty
  rw [bootEnv_predictions]
  refine ⟨_, rfl, ?_, ?_⟩
  · rw [spread_eq_zero_iff]
    decide +kernel
  · rw [Ne, spread_eq_zero_iff]
    decide +kernel

/-- **C111.** The aleatoric uncertainty is a number that is never negative; it is zero exactly if the cross-validated
predictions of the residuals are all equal. -/
theorem C111_aleatoric (E : RegressionFit.Env n κ) (residual : Fin n → ℚ) (a : ℝ)
    (h : aleatoricUncertainty E residual = .ok a) :
    0 ≤ a ∧ ∃ p, cvPredictions (E.fit residual E.noKwargs) E.assignResidual (List.finRange n) 0 E.folds = .ok p ∧
      (a = 0 ↔ ∀ i j, p i = p j) := by
  unfold aleatoricUncertainty at h
  dsimp only [bind, Except.bind] at h
  cases hv : validate n with
  | error e => rw [hv] at h; cases h
  | ok _ =>
    rw [hv] at h
    dsimp only at h
    cases hp : cvPredictions (E.fit residual E.noKwargs) E.assignResidual (List.finRange n) 0 E.folds with
    | error e => rw [hp] at h; cases h
    | ok p =>
      rw [hp] at h
      have h := Except.ok.inj h
      subst h
      refine ⟨spread_nonneg _, p, rfl, ?_⟩
      rw [spread_eq_zero_iff]
      simp

/-- **C111 fails** for the documented meaning of the aleatoric uncertainty, the standard deviation of the regression error:
what is computed is the spread of the *predicted* residuals. For a model that predicts the mean of its training labels it
is 0 for residuals whose standard deviation is any given number. -/
theorem C111_not_error_spread (r : ℚ) (hr : 0 ≤ r) :
    aleatoricUncertainty bootEnv ![r, r, -r, -r] = .ok 0 ∧ spread (List.ofFn ![r, r, -r, -r]) = r := by
  have hp : cvPredictions (bootEnv.fit ![r, r, -r, -r] bootEnv.noKwargs) bootEnv.assignResidual (List.finRange 4) 0
      bootEnv.folds = .ok (fun _ => 0) := by
    obtain ⟨p, hp⟩ := cvPredictions_exists (bootEnv.fit ![r, r, -r, -r] bootEnv.noKwargs) bootEnv.assignResidual
      bootEnv.folds (by decide)
    rw [hp]
    congr 1
    obtain ⟨-, -, -, hp⟩ := cvPredictions_ok _ _ _ _ _ _ hp
    rw [hp]
    funext i
    have hi : i ∉ (List.finRange 4).drop ((List.finRange 4).length - ⌈(((List.finRange 4).length : ℕ) : ℚ) * 0⌉.toNat) := by
      rw [List.drop_eq_nil_of_le (by simp)]
      simp
    rw [if_neg hi]
    have hin : (List.finRange 4).take ((List.finRange 4).length - ⌈(((List.finRange 4).length : ℕ) : ℚ) * 0⌉.toNat)
      = List.finRange 4 := by simp
    rw [hin]
    unfold cvLoop
    have hr : List.range bootEnv.folds = [0, 1] := rfl
    rw [hr, List.foldl_cons, List.foldl_cons, List.foldl_nil]
    have h1 : pick (List.finRange 4) (fun p => decide (bootEnv.assignResidual p ≠ 1)) = [0, 2] := by decide
    have h0 : pick (List.finRange 4) (fun p => decide (bootEnv.assignResidual p ≠ 0)) = [1, 3] := by decide
    dsimp only
    rw [h0, h1]
    simp [bootEnv]
  constructor
  · unfold aleatoricUncertainty
    rw [hp]
    show Except.ok (spread ((List.finRange 4).map (fun _ => (0 : ℚ)))) = _
    congr 1
    rw [spread_eq_zero_iff]
    simp
  · unfold spread
    have : variance (List.ofFn ![r, r, -r, -r]) = r ^ 2 := by
      simp [variance, List.ofFn_succ]
      ring
    rw [this]
    push_cast
    exact Real.sqrt_sq (by exact_mod_cast hr)

/-- A model that predicts 0 with its keyword arguments and `x` without. -/
def twoModes (x : ℚ) : RegressionFit.Env 2 Bool :=
  { fit := fun _ kw _ _ _ => if kw then 0 else x, noKwargs := false, folds := 2, nBoot := 1, aleatoric := false
    assignInitial := fun q => q, assignFinal := fun q => q, assignSearch := fun _ q => q
    assignBoot := fun _ q => q, assignResidual := fun q => q, r2 := fun _ _ => 0 }

/-- **C111 fails** for models with keyword arguments: the repeated cross-validations train the model without them. Two
models that agree under these arguments have different uncertainties. -/
theorem C111_not_kwargs (y : Fin 2 → ℚ) : (twoModes 0).fit y true = (twoModes 1).fit y true ∧
    ∃ e e', epistemicUncertainty (twoModes 0) y (some (fun _ => 0)) = .ok e ∧
      epistemicUncertainty (twoModes 1) y (some (fun _ => 0)) = .ok e' ∧ e 0 = 0 ∧ e' 0 ≠ 0 := by
  refine ⟨by funext j T i; rfl, ?_⟩
  have h : ∀ x : ℚ, bootPredictions (twoModes x) y = .ok [fun _ => x] := by
    intro x
    unfold bootPredictions
    refine mapM_eq_map (List.range 1) _ (fun _ => fun _ => x) ?_
    intro t _
    obtain ⟨p, hp⟩ := cvPredictions_exists ((twoModes x).fit y (twoModes x).noKwargs) ((twoModes x).assignBoot t) 2 le_rfl
    rw [hp]
    congr 1
    obtain ⟨-, -, -, hp⟩ := cvPredictions_ok _ _ _ _ _ _ hp
    rw [hp]
    funext i
    rw [if_neg (by rw [List.drop_eq_nil_of_le (by simp)]; simp)]
    fin_cases i <;> simp [cvLoop, pick, twoModes, List.range_succ, List.finRange_succ]
  unfold epistemicUncertainty
  rw [h 0, h 1]
  refine ⟨_, _, rfl, rfl, ?_, ?_⟩
  · rw [spread_eq_zero_iff]; simp
  · rw [Ne, spread_eq_zero_iff]; simp

/-- **C111.** If all examples have the same uncertainty (a number was given, or the epistemic uncertainty is not estimated),
then the flagged examples are those with the largest residuals. -/
theorem C111_uniform (B : ArgSort ℚ) (A : ArgSort ℝ) (E : RegressionFit.Env n κ) (o o' : Obj) (c : FindCall n κ)
    (tb : Table) (hu : E.nBoot = 0 ∧ c.uncertainty = .estimate ∨ ∃ u, 0 ≤ u ∧ c.uncertainty = .number u)
    (hc : c.integer = false) (h : RegressionFit.find B A E o c = (o', .ok tb)) :
    ∃ (flagged : Fin n → Bool) (predicted : Fin n → ℚ), tb.isIssue = .bools (List.ofFn flagged) ∧
      tb.predicted = some (List.ofFn predicted) ∧
      ∀ i j, flagged i = true → flagged j = false → |predicted j - c.y j| ≤ |predicted i - c.y i| := by
  obtain ⟨u, r, hu', hr, -, htb⟩ := find_plain B A E o o' c tb h
  have hconst : ∃ v, 0 ≤ v ∧ ∀ i, u i = v := by
    rcases hu with ⟨h0, he⟩ | ⟨v, hv, he⟩
    · rw [he] at hu'
      unfold resolveUncertainty at hu'
      dsimp only [bind, Except.bind] at hu'
      cases hep : epistemicUncertainty E c.y (some r.predicted) with
      | error e => rw [hep] at hu'; cases hu'
      | ok e =>
        rw [hep] at hu'
        dsimp only at hu'
        have hez : ∀ i, e i = 0 := by
          intro i
          refine ((C111_epistemic E c.y r.predicted e hep i).2).mpr ?_
          intro t ht
          rw [h0] at ht
          exact absurd ht (by omega)
        split_ifs at hu' with hb
        · cases hal : aleatoricUncertainty E (fun i => r.predicted i - c.y i) with
          | error e => rw [hal] at hu'; cases hu'
          | ok a =>
            rw [hal] at hu'
            have hu' := Except.ok.inj hu'
            exact ⟨a, (C111_aleatoric E _ a hal).1, fun i => by rw [← hu']; simp [hez i]⟩
        · have hu' := Except.ok.inj hu'
          exact ⟨0, le_rfl, fun i => by rw [← hu']; simp [hez i]⟩
    · rw [he] at hu'
      exact ⟨v, hv, fun i => by rw [← Except.ok.inj hu']⟩
  obtain ⟨v, hv, hconst⟩ := hconst
  obtain ⟨-, h2⟩ := C51_flags_lowest B A _ _ _ _ _ r hr
  obtain ⟨initial, k, r', med, -, -, -, -, -, hs, -⟩ := findLabelIssues_ok B A _ _ _ _ _ r hr
  refine ⟨r.flags, r.predicted, by rw [htb]; rfl, by rw [htb]; simp [tableOf, hc], ?_⟩
  intro i j hi hj
  have hle := h2 i j hi hj
  have hmed : 0 < max med tiny := lt_max_of_lt_right (by unfold tiny; positivity)
  rw [hs] at hle
  simp only [] at hle
  rw [Real.exp_le_exp, neg_div, neg_div, neg_le_neg_iff] at hle
  have hle := (div_le_div_iff_of_pos_right hmed).mp hle
  unfold adjusted plainEnv at hle
  simp only [] at hle
  rw [hconst i, hconst j, abs_div, abs_div] at hle
  have hpos : 0 < |v + tiny| := abs_pos.mpr (by unfold tiny; positivity)
  have hle := (div_le_div_iff_of_pos_right hpos).mp hle
  rw [← Rat.cast_abs, ← Rat.cast_abs] at hle
  exact_mod_cast hle

/-- The example has no epistemic uncertainty. -/
example (A : ArgSort ℝ) (o : Obj) : ∃ tb o', fitEnv.nBoot = 0 ∧ fitCall.uncertainty = .estimate ∧
    RegressionFit.find (stableSort ℚ) A fitEnv o fitCall.toFindCall = (o', .ok tb) := by
  obtain ⟨tb, h, -, -⟩ := fitCall_find A o
  exact ⟨tb, _, rfl, rfl, h⟩

theorem sortOn_id_map (A : ArgSort ℝ) (l : List ℝ) (a : ℝ) (ha : 0 < a) :
    sortOn A id (l.map (fun x => a * x)) = (sortOn A id l).map (fun x => a * x) := by
  have hp : (sortOn A id (l.map (fun x => a * x))).Perm ((sortOn A id l).map (fun x => a * x)) :=
    (sortOn_perm A id _).trans ((sortOn_perm A id l).map _).symm
  have h1 : (sortOn A id (l.map (fun x => a * x))).Pairwise (fun x y => x ≤ y) := sortOn_sorted A id _
  have h2 : ((sortOn A id l).map (fun x => a * x)).Pairwise (fun x y => x ≤ y) := by
    rw [List.pairwise_map]
    exact (sortOn_sorted A id l).imp (fun h => mul_le_mul_of_nonneg_left h ha.le)
  exact hp.eq_of_pairwise (fun x y _ _ hxy hyx => le_antisymm hxy hyx) h1 h2

theorem npMedian_map (A : ArgSort ℝ) (l : List ℝ) (a : ℝ) (ha : 0 < a) :
    npMedian A (l.map (fun x => a * x)) = (npMedian A l).map (fun x => a * x) := by
  unfold npMedian
  dsimp only
  rw [sortOn_id_map A l a ha, List.length_map]
  split_ifs
  · rw [List.getElem?_map]
  · rw [List.getElem?_map, List.getElem?_map]
    cases (sortOn A id l)[l.length / 2 - 1]? with
    | none => rfl
    | some x =>
      cases (sortOn A id l)[l.length / 2]? with
      | none => rfl
      | some y =>
        simp
        ring

theorem adjusted_number (residual : Fin n → ℝ) (u : ℝ) (hu : 0 ≤ u) (i : Fin n) :
    adjusted residual (fun _ => u) i = (1 / (u + tiny)) * |residual i| := by
  have : 0 < u + tiny := by unfold tiny; positivity
  unfold adjusted
  rw [abs_div, abs_of_pos this]
  ring

/-- **C111.** The size of an uncertainty that is the same for all examples does not matter: the scores are those of the
residuals relative to their median, as long as that is not negligible. -/
theorem C111_number (A : ArgSort ℝ) (residual : Fin n → ℝ) (u m : ℝ) (hu : 0 ≤ u)
    (hm : npMedian A ((List.finRange n).map (fun i => |residual i|)) = some m) (hpos : tiny * (u + tiny) ≤ m) :
    qualityScores A residual (fun _ => u) = some (fun i => Real.exp (-(|residual i| / m))) := by
  have hc : 0 < u + tiny := by unfold tiny; positivity
  have hmed : npMedian A ((List.finRange n).map (adjusted residual (fun _ => u))) = some (1 / (u + tiny) * m) := by
    have : (List.finRange n).map (adjusted residual (fun _ => u))
        = ((List.finRange n).map (fun i => |residual i|)).map (fun x => 1 / (u + tiny) * x) := by
      rw [List.map_map]
      apply List.map_congr_left
      intro i _
      exact adjusted_number residual u hu i
    rw [this, npMedian_map A _ _ (by positivity), hm]
    rfl
  unfold qualityScores
  rw [hmed, Option.map_some]
  congr 1
  funext i
  have hmax : max (1 / (u + tiny) * m) tiny = 1 / (u + tiny) * m := by
    apply max_eq_left
    rw [one_div, inv_mul_eq_div, le_div_iff₀ hc]
    exact hpos
  rw [hmax, adjusted_number residual u hu i]
  congr 1
  have hm0 : m ≠ 0 := by
    have : 0 < tiny * (u + tiny) := by unfold tiny at *; positivity
    intro h0
    rw [h0] at hpos
    linarith
  field_simp

/-- One example with residual 1: the score is `exp (-1)` for every number between 0 and 1. -/
example (A : ArgSort ℝ) (u : ℝ) (hu : 0 ≤ u) (hu1 : u ≤ 1) :
    qualityScores (n := 1) A (fun _ => 1) (fun _ => u) = some (fun _ => Real.exp (-(|1| / 1))) := by
  refine C111_number A (fun _ => 1) u 1 hu (by simpa using npMedian_singleton A 1) ?_
  have : tiny ≤ 1 / 2 := by unfold tiny; norm_num
  have h0 : 0 < tiny := by unfold tiny; positivity
  nlinarith

/-! ## C112: seeds -/

/-- **C112.** Making an object with a seed and then only searching with it gives the same results in every program: whatever
was done before, and whatever the state of the random numbers was. -/
theorem C112_reproducible_partial {G : Type} (B : ArgSort ℚ) (A : ArgSort ℝ) (R : Random G n κ) (s : ℕ)
    (calls : List (FindCall n κ)) (w w' : World G) :
    ∃ results, (calls.foldl (fun v c => v.exec B A R (.find w.objects.length c)) (w.exec B A R (.make (some s)))).results
        = w.results ++ results ∧
      (calls.foldl (fun v c => v.exec B A R (.find w'.objects.length c)) (w'.exec B A R (.make (some s)))).results
        = w'.results ++ results ∧ results.length = calls.length := by
  have key : ∀ (calls : List (FindCall n κ)) (v v' : World G) (i i' : ℕ) (o : Obj), v.rng = v'.rng →
      v.objects[i]? = some o → v'.objects[i']? = some o →
      ∃ results, (calls.foldl (fun v c => v.exec B A R (.find i c)) v).results = v.results ++ results ∧
        (calls.foldl (fun v c => v.exec B A R (.find i' c)) v').results = v'.results ++ results ∧
        results.length = calls.length := by
    intro calls
    induction calls with
    | nil => intro v v' i i' o _ _ _; exact ⟨[], by simp, by simp, rfl⟩
    | cons c calls ih =>
      intro v v' i i' o hr ho ho'
      rw [List.foldl_cons, List.foldl_cons]
      have e1 : v.exec B A R (.find i c) = ⟨R.next v.rng c,
          v.objects.set i (RegressionFit.find B A (R.env v.rng) o c).1,
          v.results ++ [(RegressionFit.find B A (R.env v.rng) o c).2]⟩ := by
        dsimp only [World.exec]; rw [ho]
      have e2 : v'.exec B A R (.find i' c) = ⟨R.next v'.rng c,
          v'.objects.set i' (RegressionFit.find B A (R.env v'.rng) o c).1,
          v'.results ++ [(RegressionFit.find B A (R.env v'.rng) o c).2]⟩ := by
        dsimp only [World.exec]; rw [ho']
      have hi : i < v.objects.length := (List.getElem?_eq_some_iff.mp ho).1
      have hi' : i' < v'.objects.length := (List.getElem?_eq_some_iff.mp ho').1
      obtain ⟨results, h1, h2, h3⟩ := ih (v.exec B A R (.find i c)) (v'.exec B A R (.find i' c)) i i'
        (RegressionFit.find B A (R.env v.rng) o c).1 (by rw [e1, e2, hr])
        (by rw [e1]; simp [hi]) (by rw [e2, ← hr]; simp [hi'])
      refine ⟨(RegressionFit.find B A (R.env v.rng) o c).2 :: results, ?_, ?_, by simp [h3]⟩
      · rw [h1, e1]; simp
      · rw [h2, e2, ← hr]; simp
  refine key calls _ _ _ _ {} rfl ?_ ?_ <;> simp [World.exec]

/-- A toy random state: the number of calls made since the seed was set; the folds alternate between two assignments. -/
def alternating : Random ℕ 4 Unit :=
  { seeded := fun _ => 0
    env := fun g => { bootEnv with
      nBoot := 0, aleatoric := false
      assignInitial := fun q => if g % 2 = 0 then q % 2 else q / 2
      assignFinal := fun q => if g % 2 = 0 then q % 2 else q / 2 }
    next := fun g _ => g + 1 }

/-- Labels 0, 0, 0, 10, and fractions that leave too few examples. -/
def alternatingCall : FindCall 4 Unit :=
  { y := ![0, 0, 0, 10], coarse := [3/4, 4/5], size := 0, kwargs := () }

theorem alternating_find (A : ArgSort ℝ) (g : ℕ) (order : List (Fin 4)) (p : Fin 4 → ℚ)
    (h1 : chooseFraction (stableSort ℚ) (alternating.env g) alternatingCall = .ok (0, order))
    (h2 : cvPredictions ((alternating.env g).fit alternatingCall.y ()) (alternating.env g).assignFinal order 0 2 = .ok p)
    (o : Obj) : ∃ tb, RegressionFit.find (stableSort ℚ) A (alternating.env g) o alternatingCall
      = ({ table := some tb, k := some 0 }, .ok tb) ∧ tb.predicted = some (List.ofFn p) := by
  unfold RegressionFit.find
  rw [h1]
  dsimp only
  unfold RegressionFit.issueTable
  have h2' : cvPredictions ((alternating.env g).fit alternatingCall.y alternatingCall.kwargs)
    (alternating.env g).assignFinal order 0 (alternating.env g).folds = .ok p := h2
  rw [h2']
  have hu : resolveUncertainty (alternating.env g) alternatingCall.y p alternatingCall.uncertainty
    = .ok (fun _ => 0 + 0) := rfl
  dsimp only [bind, Except.bind]
  rw [hu]
  dsimp only
  obtain ⟨med, hmed⟩ := Option.isSome_iff_exists.mp (npMedian_isSome A ((List.finRange 4).map
    (adjusted (fun i : Fin 4 => ((p i - alternatingCall.y i : ℚ) : ℝ)) (fun _ => 0 + 0))) (by simp))
  unfold qualityScores
  rw [hmed]
  refine ⟨_, rfl, ?_⟩
  simp [alternatingCall]

theorem alternating_even (A : ArgSort ℝ) (o : Obj) : ∃ tb,
    RegressionFit.find (stableSort ℚ) A (alternating.env 0) o alternatingCall
      = ({ table := some tb, k := some 0 }, .ok tb) ∧ tb.predicted = some (List.ofFn ![0, 5, 5, 0]) :=
  alternating_find A 0 [1, 0, 2, 3] _ (ok_of_toOption (by decide +kernel)) (ok_of_toOption (by decide +kernel)) o

theorem alternating_odd (A : ArgSort ℝ) (o : Obj) : ∃ tb,
    RegressionFit.find (stableSort ℚ) A (alternating.env 1) o alternatingCall
      = ({ table := some tb, k := some 0 }, .ok tb) ∧ tb.predicted = some (List.ofFn ![5, 0, 5, 0]) :=
  alternating_find A 1 [2, 0, 1, 3] _ (ok_of_toOption (by decide +kernel)) (ok_of_toOption (by decide +kernel)) o

/-- **C112 fails** in general: two objects made with the same seed, with the same settings and used once on the same data,
give different results if both are made before they are used. The seed is not kept for the folds; it only sets the global
random state when an object is made. -/
theorem C112_not_same_seed (A : ArgSort ℝ) : ∃ tb tb',
    ([Command.make (some 7), .make (some 7), .find 0 alternatingCall, .find 1 alternatingCall].foldl
      (World.exec (stableSort ℚ) A alternating) ⟨0, [], []⟩).results = [.ok tb, .ok tb'] ∧
    tb.predicted ≠ tb'.predicted := by
  obtain ⟨tb, h, hp⟩ := alternating_even A {}
  obtain ⟨tb', h', hp'⟩ := alternating_odd A {}
  refine ⟨tb, tb', ?_, by rw [hp, hp']; decide +kernel⟩
  rw [List.foldl_cons, List.foldl_cons, List.foldl_cons, List.foldl_cons, List.foldl_nil]
  have e1 : (World.exec (stableSort ℚ) A alternating
      (World.exec (stableSort ℚ) A alternating ⟨0, [], []⟩ (.make (some 7))) (.make (some 7))) = ⟨0, [{}, {}], []⟩ := rfl
  have e2 : World.exec (stableSort ℚ) A alternating ⟨0, [{}, {}], []⟩ (.find 0 alternatingCall)
      = ⟨1, [{ table := some tb, k := some 0 }, {}], [.ok tb]⟩ := by
    dsimp only [World.exec, List.getElem?_cons_zero]
    rw [h]
    rfl
  rw [e1, e2]
  dsimp only [World.exec, List.getElem?_cons_zero, List.getElem?_cons_succ]
  rw [h']
  rfl

/-- **C112 fails** also for one object: the same call repeated gives another result. -/
theorem C112_not_repeatable (A : ArgSort ℝ) : ∃ tb tb',
    ([Command.make (some 7), .find 0 alternatingCall, .find 0 alternatingCall].foldl
      (World.exec (stableSort ℚ) A alternating) ⟨0, [], []⟩).results = [.ok tb, .ok tb'] ∧
    tb.predicted ≠ tb'.predicted := by
  obtain ⟨tb, h, hp⟩ := alternating_even A {}
  obtain ⟨tb', h', hp'⟩ := alternating_odd A { table := some tb, k := some 0 }
  refine ⟨tb, tb', ?_, by rw [hp, hp']; decide +kernel⟩
  rw [List.foldl_cons, List.foldl_cons, List.foldl_cons, List.foldl_nil]
  have e1 : World.exec (stableSort ℚ) A alternating ⟨0, [], []⟩ (.make (some 7)) = ⟨0, [{}], []⟩ := rfl
  have e2 : World.exec (stableSort ℚ) A alternating ⟨0, [{}], []⟩ (.find 0 alternatingCall)
      = ⟨1, [{ table := some tb, k := some 0 }], [.ok tb]⟩ := by
    dsimp only [World.exec, List.getElem?_cons_zero]
    rw [h]
    rfl
  rw [e1, e2]
  dsimp only [World.exec, List.getElem?_cons_zero]
  rw [h']
  rfl

/-- **C112 fails** for the rest of the program: making an object with a seed sets the global random state, so that draws of
the caller repeat. -/
theorem C112_not_local {G : Type} (B : ArgSort ℚ) (A : ArgSort ℝ) (R : Random G n κ) (s : ℕ) (w w' : World G) :
    (w.exec B A R (.make (some s))).rng = (w'.exec B A R (.make (some s))).rng := rfl

end Cleanlab.Props
