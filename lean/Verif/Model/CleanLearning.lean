import Verif.Model.FilterChecked
import Verif.Model.Latent

/-!
# Model of `cleanlab/classification.py`: the state of a `CleanLearning` object

Each method takes the attributes of the object and returns them together with a result or an exception; attributes
assigned before an exception stay assigned. All calls on one object use the same number of classes `K`. Cross-validation
is run at most once per call; its outcome is part of the arguments (`Verif.Model.CrossVal` models how it is computed).
-/

namespace Cleanlab.CleanLearning

open Np Cleanlab.Count Cleanlab.Latent Cleanlab.Filter

variable {K : ℕ}

/-- A `K × K` matrix. -/
abbrev Mat (K : ℕ) : Type := Fin K → Fin K → ℚ

/-- The dictionary `find_label_issues_kwargs`: an entry is `none` if its key is absent (entries whose value is `None` are
not modelled). -/
structure Kwargs (K : ℕ) where
  minExamples : Option ℕ := none
  filterBy : Option FilterBy := none
  fracNoise : Option ℚ := none
  numToRemove : Option (Fin K → ℤ) := none
  confidentJoint : Option (Mat K) := none
  unsupported : Bool := false

/-- Constructor arguments that do not change, `classification.py:213-263`; `pyInv` is `compute_py_inv_noise_matrix`
(`latent_algebra.py:39-63`, uses a matrix inverse), `batched` is `find_label_issues_batched(labels, pred_probs,
return_mask=True)` and `scores` is `get_label_quality_scores` with the given keyword arguments. -/
structure Settings (K : ℕ) where
  cvFolds : ℕ := 5
  converge : Bool := false
  pulearning : Option (Fin K) := none
  lowMemory : Bool := false
  sort : ArgSort ℚ
  pyInv : (Fin K → ℚ) → Mat K → Except String ((Fin K → ℚ) × Mat K)
  batched : {n : ℕ} → (Fin n → Fin K) → (Fin n → Fin K → ℚ) → Except String (Fin n → Bool)
  scores : {n : ℕ} → (Fin n → Fin K) → (Fin n → Fin K → ℚ) → Except String (Fin n → ℚ)

/-- A row of the data frame of label issues. -/
structure IssueRow (K : ℕ) where
  isLabelIssue : Bool
  labelQuality : ℚ
  givenLabel : Fin K
  predictedLabel : Fin K
deriving DecidableEq

/-- The attributes that calls change, `classification.py:244-263`; of the data frame `label_issues_df` only the column
`is_label_issue` is kept, which is also `label_issues_mask`. -/
structure State (K : ℕ) where
  kwargs : Option (Kwargs K)
  confidentJoint : Option (Mat K) := none
  py : Option (Fin K → ℚ) := none
  noiseMatrix : Option (Mat K) := none
  inverseNoiseMatrix : Option (Mat K) := none
  labelIssuesMask : Option (List Bool) := none
  sampleWeight : Option (List ℚ) := none

/-- `CleanLearning(find_label_issues_kwargs=kwargs)`, `classification.py:213-263`. -/
def fresh (kwargs : Kwargs K) : State K := { kwargs := some kwargs }

/-- Arguments of `find_label_issues`, `classification.py:675-687`. -/
structure Call (K : ℕ) where
  n : ℕ
  labels : Fin n → Fin K
  predProbs : Option (Fin n → Fin K → ℚ) := none
  /-- what cross-validation computes if `pred_probs` is not given -/
  cvProbs : Fin n → Fin K → ℚ
  thresholds : Option (Fin K → ℚ) := none
  noiseMatrix : Option (Mat K) := none
  inverseNoiseMatrix : Option (Mat K) := none
  saveSpace : Bool := false

/-- The predicted probabilities used, given or from cross-validation. -/
def Call.probs (a : Call K) : Fin a.n → Fin K → ℚ := a.predProbs.getD a.cvProbs

/-- `compute_confident_joint(labels, pred_probs, thresholds)`, calibrated by default. -/
def Call.joint [NeZero K] (A : ArgSort ℚ) (a : Call K) : Mat K :=
  fun s y => (computeConfidentJoint A a.labels a.probs (a.thresholds.getD (getConfidentThresholds a.labels a.probs))
    true s y : ℚ)

/-- `self.ps = value_counts(labels) / len(labels)`, `classification.py:763`: shorter than `K` if a class is absent, and
then its use in a product with a `K × K` matrix raises. (With a single class it would be broadcast, but at least two
classes are required.) -/
def Call.ps (a : Call K) : Except String (Fin K → ℚ) :=
  if ∀ k, labelCounts a.labels k ≠ 0 then .ok (fun k => (labelCounts a.labels k : ℚ) / a.n)
  else .error "operands could not be broadcast together"

/-- `_process_label_issues_kwargs`, `classification.py:996-1021`. -/
def processKwargs (s : State K) : State K × Except String (Kwargs K) :=
  match s.kwargs with
  | none => (s, .error "'NoneType' object is not a mapping")
  | some kw =>
    let kw := { kw with minExamples := some (kw.minExamples.getD 10) }
    if kw.unsupported then (s, .error "These kwargs of `find_label_issues()` are not supported")
    else
      ({ s with
          confidentJoint := match kw.confidentJoint with
            | some cj => some cj
            | none => s.confidentJoint
          kwargs := some kw }, .ok kw)

/-- `classification.py:802-806`: a joint already present replaces the noise matrix argument. -/
def latentFromJoint (s : State K) (a : Call K) : State K × Except String (Option (Mat K)) :=
  match s.confidentJoint with
  | none => (s, .ok a.noiseMatrix)
  | some cj =>
    match estimateLatent cj a.labels .cnt false with
    | .error e => (s, .error e)
    | .ok (py, noise, _) => ({ s with py := some py }, .ok (some noise))

/-- `classification.py:809-828`. -/
def useMatrices (cfg : Settings K) (s : State K) (a : Call K) (noise : Option (Mat K)) : State K × Except String Unit :=
  match noise, a.inverseNoiseMatrix with
  | some m, none =>
    match a.ps.bind (fun ps => cfg.pyInv ps m) with
    | .error e => ({ s with noiseMatrix := some m }, .error e)
    | .ok (py, inv) => ({ s with noiseMatrix := some m, py := some py, inverseNoiseMatrix := some inv }, .ok ())
  | some m, some inv => ({ s with noiseMatrix := some m, inverseNoiseMatrix := some inv }, .ok ())
  | none, some inv =>
    match a.ps with
    | .error e => ({ s with inverseNoiseMatrix := some inv }, .error e)
    | .ok ps =>
      ({ s with inverseNoiseMatrix := some inv, noiseMatrix := some (computeNoiseMatrixFromInverse ps inv none) }, .ok ())
  | none, none => (s, .ok ())

/-- `classification.py:830-891`: estimate the noise from the predictions if nothing was given, and compute the confident
joint if it is not yet there. -/
def estimateNoise [NeZero K] (cfg : Settings K) (s : State K) (a : Call K) (noise : Option (Mat K)) :
    State K × Except String Unit :=
  let cj := a.joint cfg.sort
  if noise.isNone ∧ a.inverseNoiseMatrix.isNone then
    match estimateLatent cj a.labels .cnt cfg.converge with
    | .error e => (s, .error e)
    | .ok (py, m, inv) =>
      ({ s with py := some py, noiseMatrix := some m, inverseNoiseMatrix := some inv, confidentJoint := some cj }, .ok ())
  else
    match s.confidentJoint with
    | some _ => (s, .ok ())
    | none => ({ s with confidentJoint := some cj }, .ok ())

/-- `m[p][1-p] = x; m[1-p][1-p] = y` for the two classes `p` and `q`. -/
def setPair (m : Mat K) (p q : Fin K) (x y : ℚ) : Mat K :=
  fun a b => if b = q then (if a = p then x else if a = q then y else m a b) else m a b

/-- `m[1-p][p] = x; m[p][p] = y`. -/
def setPairInv (m : Mat K) (p q : Fin K) (x y : ℚ) : Mat K :=
  fun a b => if b = p then (if a = q then x else if a = p then y else m a b) else m a b

/-- `classification.py:894-903`; the joint in the dictionary is the same array as `self.confident_joint`. -/
def puLearning (cfg : Settings K) (s : State K) (kw : Kwargs K) : State K × Kwargs K :=
  match cfg.pulearning with
  | none => (s, kw)
  | some p =>
    if h : K = 2 then
      let q : Fin K := ⟨1 - p.val, by omega⟩
      ({ s with
          noiseMatrix := s.noiseMatrix.map (fun m => setPair m p q 0 1)
          inverseNoiseMatrix := s.inverseNoiseMatrix.map (fun m => setPairInv m p q 0 1)
          confidentJoint := s.confidentJoint.map (fun m => setPair m p q 0 1) },
        { kw with confidentJoint := kw.confidentJoint.map (fun m => setPair m p q 0 1) })
    else (s, kw)

/-- `classification.py:906-909`. -/
def addJoint (s : State K) (kw : Kwargs K) : Kwargs K :=
  if kw.confidentJoint.isNone ∧ kw.filterBy ≠ some .confidentLearning then { kw with confidentJoint := s.confidentJoint }
  else kw

/-- The keyword arguments as `filter.find_label_issues` receives them. -/
def Kwargs.toArgs (kw : Kwargs K) : Args K :=
  { filterBy := kw.filterBy.getD .pruneByNoiseRate
    fracNoise := kw.fracNoise.getD 1
    numToRemove := kw.numToRemove
    minExamples := kw.minExamples.getD 1
    confidentJoint := kw.confidentJoint }

/-- The branch of `find_label_issues` without `low_memory`, `classification.py:800-918`. -/
def findMask [NeZero K] (cfg : Settings K) (s : State K) (a : Call K) : State K × Except String (Fin a.n → Bool) :=
  match processKwargs s with
  | (s, .error e) => (s, .error e)
  | (s, .ok kw) =>
    match latentFromJoint s a with
    | (s, .error e) => (s, .error e)
    | (s, .ok noise) =>
      match useMatrices cfg s a noise with
      | (s, .error e) => (s, .error e)
      | (s, .ok ()) =>
        match estimateNoise cfg s a noise with
        | (s, .error e) => (s, .error e)
        | (s, .ok ()) =>
          let (s, kw) := puLearning cfg s kw
          let kw := addJoint s kw
          ({ s with kwargs := some kw }, findChecked cfg.sort a.labels a.probs kw.toArgs)

/-- `get_label_quality_scores(labels, pred_probs, **self.label_quality_scores_kwargs)`, `classification.py:502`, `919`:
`save_space` sets `label_quality_scores_kwargs` to `None` at the same time as `find_label_issues_kwargs`, and neither is
set again. -/
def qualityScores (cfg : Settings K) (s : State K) {n : ℕ} (labels : Fin n → Fin K) (P : Fin n → Fin K → ℚ) :
    Except String (Fin n → ℚ) :=
  if s.kwargs.isNone then .error "argument after ** must be a mapping, not NoneType" else cfg.scores labels P

/-- The data frame, `classification.py:919-930`. -/
def issueTable [NeZero K] (cfg : Settings K) (s : State K) (a : Call K) (mask : Fin a.n → Bool) :
    Except String (List (IssueRow K)) := do
  let scores ← qualityScores cfg s a.labels a.probs
  return (List.finRange a.n).map (fun i => ⟨mask i, scores i, a.labels i, argmax (a.probs i)⟩)

/-- `assert_valid_inputs(X, labels, pred_probs)`, `classification.py:481`, `741`, as far as labels and probabilities are
concerned. -/
def checkInputs (a : Call K) : Except String Unit :=
  if ¬ ∃ i j, a.labels i ≠ a.labels j then .error "Labels must contain at least 2 classes."
  else
    match a.predProbs with
    | none => .ok ()
    | some P => validate false a.labels P

/-- The checks at the start, `classification.py:740-761`. -/
def checkCall (cfg : Settings K) (a : Call K) : Except String Unit := do
  checkInputs a
  if a.noiseMatrix.any (fun m => decide (∑ k, m k k ≤ 1)) then .error "Trace(noise_matrix) must exceed 1."
  else if a.inverseNoiseMatrix.any (fun m => decide (∑ k, m k k ≤ 1)) then
    .error "Trace(inverse_noise_matrix) must exceed 1."
  else if a.predProbs.isNone ∧ (a.n : ℚ) / K < cfg.cvFolds then
    .error "Need more data from each class for cross-validation."
  else .ok ()

/-- `find_label_issues`, `classification.py:675-947`. -/
def findLabelIssues [NeZero K] (cfg : Settings K) (s : State K) (a : Call K) :
    State K × Except String (List (IssueRow K)) :=
  match checkCall cfg a with
  | .error e => (s, .error e)
  | .ok () =>
    let (s, mask) := if cfg.lowMemory then (s, cfg.batched a.labels a.probs) else findMask cfg s a
    match mask.bind (issueTable cfg s a) with
    | .error e => (s, .error e)
    | .ok df => (if a.saveSpace then s else { s with labelIssuesMask := some (df.map (·.isLabelIssue)) }, .ok df)

/-- `save_space`, `classification.py:969-994`. -/
def saveSpace (_ : State K) : State K := { kwargs := none }

/-- The attributes after a history of `find_label_issues` calls, whether they raise or not. -/
def after [NeZero K] (cfg : Settings K) (s : State K) (calls : List (Call K)) : State K :=
  calls.foldl (fun s a => (findLabelIssues cfg s a).1) s

/-- `sklearn.base.clone(cl)`: a new object built from the constructor arguments, which are read from the attributes of the
same names. -/
def clone (s : State K) : State K := { kwargs := s.kwargs }

/-- The forms of the argument `label_issues` of `fit`. -/
inductive LabelIssuesArg (K : ℕ)
  /-- a data frame with column `is_label_issue` and perhaps `given_label` -/
  | table (isIssue : List Bool) (given : Option (List (Fin K)))
  /-- a data frame without that column -/
  | noColumn
  | mask (m : List Bool)
  | indices (idx : List ℤ)
  | other

/-- `_process_label_issues_arg`, `classification.py:1023-1062`: the flagged examples. Negative indices count from the
end. -/
def processArg {n : ℕ} (labels : Fin n → Fin K) : LabelIssuesArg K → Except String (Fin n → Bool)
  | .noColumn => .error "DataFrame label_issues must contain column: 'is_label_issue'."
  | .table m given =>
    if h : m.length = n then
      if given.any (fun g => decide (g ≠ List.ofFn labels)) then .error "labels must match label_issues['given_label']"
      else .ok (fun i => m[i.val])
    else .error "label_issues and labels must have same length"
  | .mask m =>
    if h : m.length = n then .ok (fun i => m[i.val])
    else .error "If label_issues is boolean numpy.array, must have same shape as labels"
  | .indices idx =>
    if ¬ idx.Nodup then .error "must contain unique integer indices"
    else if ∃ z ∈ idx, z < -(n : ℤ) ∨ (n : ℤ) ≤ z then .error "index is out of bounds"
    else .ok (fun i => decide ((i : ℤ) ∈ idx ∨ (i : ℤ) - n ∈ idx))
  | .other => .error "label_issues must be either pandas.DataFrame or numpy.array"

/-- Arguments of `fit`, `classification.py:265-280`. -/
structure FitCall (K : ℕ) extends Call K where
  labelIssues : Option (LabelIssuesArg K) := none
  /-- `label_issues` is a data frame with a column `label_quality` -/
  hasQuality : Bool := false
  sampleWeight : Option (Fin n → ℚ) := none
  /-- `"sample_weight" in clf_kwargs` -/
  weightInKwargs : Bool := false
  /-- `clf_final_kwargs["sample_weight"]` -/
  finalWeight : Option (List ℚ) := none
  /-- `"sample_weight" in inspect.signature(self.clf.fit).parameters` -/
  clfTakesWeight : Bool := true
  /-- `labels` is a Python list rather than an array or a series -/
  labelsIsList : Bool := false

/-- What is passed to `self.clf.fit`: the examples with their labels, and `sample_weight` if it is passed. -/
structure Training (n K : ℕ) where
  examples : List (Fin n × Fin K)
  weights : Option (List ℚ)

/-- `sample_weight_auto`, `classification.py:527-532`. If `labels_cleaned` is a list, `labels_cleaned == k` is `False` and
the assignment changes nothing. -/
def autoWeight (noise : Mat K) (isList : Bool) (k : Fin K) : ℚ :=
  if isList then 1 else 1 / max (noise k k) (1 / 1000)

/-- `fit` once the flagged examples are known, `classification.py:506-575`. -/
def finalFit (s : State K) (a : FitCall K) (flagged : Fin a.n → Bool) : State K × Training a.n K :=
  let kept := (List.finRange a.n).filter (fun i => !flagged i)
  let s := { s with labelIssuesMask := some (List.ofFn flagged) }
  let examples := kept.map (fun i => (i, a.labels i))
  match a.sampleWeight, a.finalWeight with
  | _, some w => (s, ⟨examples, some w⟩)
  | some w, none => (s, ⟨examples, some (kept.map w)⟩)
  | none, none =>
    match s.noiseMatrix with
    | none => (s, ⟨examples, none⟩)
    | some noise =>
      if a.clfTakesWeight then
        ({ s with sampleWeight := some (List.ofFn (fun i =>
            if flagged i then 0 else autoWeight noise a.labelsIsList (a.labels i))) },
          ⟨examples, some (kept.map (fun i => autoWeight noise a.labelsIsList (a.labels i)))⟩)
      else (s, ⟨examples, none⟩)

/-- `classification.py:499-504`: scores for given `label_issues` without a column `label_quality`. Of the scores only
whether they can be computed is kept. -/
def addQuality (cfg : Settings K) (s : State K) (a : FitCall K) : Except String Unit :=
  match a.predProbs with
  | none => .ok ()
  | some P => if a.hasQuality then .ok () else (qualityScores cfg s a.labels P).map (fun _ => ())

/-- `fit`, `classification.py:265-582`. -/
def fit [NeZero K] (cfg : Settings K) (s : State K) (a : FitCall K) : State K × Except String (Training a.n K) :=
  if a.weightInKwargs then (s, .error "sample_weight should be provided directly in fit() or in clf_final_kwargs")
  else if a.sampleWeight.isSome ∧ ¬ a.clfTakesWeight then
    (s, .error "sample_weight must be a supported fit() argument for your model")
  else
    match a.labelIssues with
    | none =>
      match findLabelIssues cfg s { a.toCall with saveSpace := false } with
      | (s, .error e) => (s, .error e)
      | (s, .ok df) =>
        match processArg a.labels (.table (df.map (·.isLabelIssue)) (some (df.map (·.givenLabel)))) with
        | .error e => (s, .error e)
        | .ok flagged => (fun r => (r.1, .ok r.2)) (finalFit s a flagged)
    | some arg =>
      match checkInputs a.toCall with
      | .error e => (s, .error e)
      | .ok () =>
        match processArg a.labels arg with
        | .error e => (s, .error e)
        | .ok flagged =>
          match addQuality cfg s a with
          | .error e => (s, .error e)
          | .ok () => (fun r => (r.1, .ok r.2)) (finalFit s a flagged)

end Cleanlab.CleanLearning
