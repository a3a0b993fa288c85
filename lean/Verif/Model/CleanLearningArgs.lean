import Verif.Model.CleanLearning

/-!
# Model of `cleanlab/classification.py`: the objects a caller hands to `CleanLearning`

`Verif.Model.CleanLearning` treats matrices and the data frame of label issues as values. Here they are objects that the
caller keeps: the attributes of the `CleanLearning` object are references, so a write through an attribute is seen by
the caller.
-/

namespace Cleanlab.CleanLearning

open Np Cleanlab.Count Cleanlab.Latent Cleanlab.Filter

variable {K : ℕ}

/-! ## Arrays -/

/-- The attributes as references to arrays. Arrays are numbered in the order of their creation, `heap r` is the content
of array number `r < next`. `kwJoint` is the entry `confident_joint` of the dictionary `find_label_issues_kwargs` (the
field `confidentJoint` of `kwargs` is not used). -/
structure HState (K : ℕ) where
  heap : ℕ → Mat K
  next : ℕ
  kwargs : Option (Kwargs K)
  kwJoint : Option ℕ := none
  confidentJoint : Option ℕ := none
  noiseMatrix : Option ℕ := none
  inverseNoiseMatrix : Option ℕ := none
  py : Option (Fin K → ℚ) := none
  labelIssuesMask : Option (List Bool) := none
  sampleWeight : Option (List ℚ) := none

/-- A call whose `noise_matrix` and `inverse_noise_matrix` are references (the matrices of `call` are not used). -/
structure HCall (K : ℕ) where
  call : Call K
  noise : Option ℕ := none
  inverse : Option ℕ := none

/-- A new array. -/
def HState.alloc (s : HState K) (m : Mat K) : HState K × ℕ :=
  ({ s with heap := Function.update s.heap s.next m, next := s.next + 1 }, s.next)

/-- An assignment to entries of an array, if there is one. -/
def HState.write (s : HState K) (r : Option ℕ) (f : Mat K → Mat K) : HState K :=
  match r with
  | none => s
  | some r => { s with heap := Function.update s.heap r (f (s.heap r)) }

/-- `_process_label_issues_kwargs`, `classification.py:996-1021`: the dictionary is copied, the array in it is not. -/
def processKwargsH (s : HState K) : HState K × Except String (Kwargs K) :=
  match s.kwargs with
  | none => (s, .error "'NoneType' object is not a mapping")
  | some kw =>
    let kw := { kw with minExamples := some (kw.minExamples.getD 10) }
    if kw.unsupported then (s, .error "These kwargs of `find_label_issues()` are not supported")
    else
      ({ s with
          confidentJoint := match s.kwJoint with
            | some r => some r
            | none => s.confidentJoint
          kwargs := some kw }, .ok kw)

/-- `classification.py:802-806`: `estimate_latent` returns a new array. -/
def latentFromJointH (s : HState K) (a : HCall K) : HState K × Except String (Option ℕ) :=
  match s.confidentJoint with
  | none => (s, .ok a.noise)
  | some r =>
    match estimateLatent (s.heap r) a.call.labels .cnt false with
    | .error e => (s, .error e)
    | .ok (py, noise, _) =>
      let (s, r) := s.alloc noise
      ({ s with py := some py }, .ok (some r))

/-- `classification.py:809-828`: `self.noise_matrix = noise_matrix` and `self.inverse_noise_matrix =
inverse_noise_matrix` do not copy. -/
def useMatricesH (cfg : Settings K) (s : HState K) (a : HCall K) (noise : Option ℕ) : HState K × Except String Unit :=
  match noise, a.inverse with
  | some r, none =>
    match a.call.ps.bind (fun ps => cfg.pyInv ps (s.heap r)) with
    | .error e => ({ s with noiseMatrix := some r }, .error e)
    | .ok (py, inv) =>
      let (s, i) := s.alloc inv
      ({ s with noiseMatrix := some r, py := some py, inverseNoiseMatrix := some i }, .ok ())
  | some r, some i => ({ s with noiseMatrix := some r, inverseNoiseMatrix := some i }, .ok ())
  | none, some i =>
    match a.call.ps with
    | .error e => ({ s with inverseNoiseMatrix := some i }, .error e)
    | .ok ps =>
      let (s, r) := s.alloc (computeNoiseMatrixFromInverse ps (s.heap i) none)
      ({ s with inverseNoiseMatrix := some i, noiseMatrix := some r }, .ok ())
  | none, none => (s, .ok ())

/-- `classification.py:830-891`. -/
def estimateNoiseH [NeZero K] (cfg : Settings K) (s : HState K) (a : HCall K) (noise : Option ℕ) :
    HState K × Except String Unit :=
  let cj := a.call.joint cfg.sort
  if noise.isNone ∧ a.inverse.isNone then
    match estimateLatent cj a.call.labels .cnt cfg.converge with
    | .error e => (s, .error e)
    | .ok (py, m, inv) =>
      let (s, r) := s.alloc m
      let (s, i) := s.alloc inv
      let (s, c) := s.alloc cj
      ({ s with py := some py, noiseMatrix := some r, inverseNoiseMatrix := some i, confidentJoint := some c }, .ok ())
  else
    match s.confidentJoint with
    | some _ => (s, .ok ())
    | none =>
      let (s, c) := s.alloc cj
      ({ s with confidentJoint := some c }, .ok ())

/-- `classification.py:894-903`: the entries are assigned in place. -/
def puLearningH (cfg : Settings K) (s : HState K) : HState K :=
  match cfg.pulearning with
  | none => s
  | some p =>
    if h : K = 2 then
      let q : Fin K := ⟨1 - p.val, by omega⟩
      let s := s.write s.noiseMatrix (fun m => setPair m p q 0 1)
      let s := s.write s.inverseNoiseMatrix (fun m => setPairInv m p q 0 1)
      s.write s.confidentJoint (fun m => setPair m p q 0 1)
    else s

/-- `classification.py:906-909`. -/
def addJointH (s : HState K) (kw : Kwargs K) : HState K :=
  if s.kwJoint.isNone ∧ kw.filterBy ≠ some .confidentLearning then
    { s with kwargs := some kw, kwJoint := s.confidentJoint }
  else { s with kwargs := some kw }

/-- The branch of `find_label_issues` without `low_memory`, `classification.py:800-918`. -/
def findMaskH [NeZero K] (cfg : Settings K) (s : HState K) (a : HCall K) :
    HState K × Except String (Fin a.call.n → Bool) :=
  match processKwargsH s with
  | (s, .error e) => (s, .error e)
  | (s, .ok kw) =>
    match latentFromJointH s a with
    | (s, .error e) => (s, .error e)
    | (s, .ok noise) =>
      match useMatricesH cfg s a noise with
      | (s, .error e) => (s, .error e)
      | (s, .ok ()) =>
        match estimateNoiseH cfg s a noise with
        | (s, .error e) => (s, .error e)
        | (s, .ok ()) =>
          let s := addJointH (puLearningH cfg s) kw
          (s, findChecked cfg.sort a.call.labels a.call.probs
            { kw with confidentJoint := s.kwJoint.map s.heap }.toArgs)

/-- The attributes with the arrays they refer to. -/
def HState.view (s : HState K) : State K where
  kwargs := s.kwargs.map (fun kw => { kw with confidentJoint := s.kwJoint.map s.heap })
  confidentJoint := s.confidentJoint.map s.heap
  py := s.py
  noiseMatrix := s.noiseMatrix.map s.heap
  inverseNoiseMatrix := s.inverseNoiseMatrix.map s.heap
  labelIssuesMask := s.labelIssuesMask
  sampleWeight := s.sampleWeight

/-- The arguments with the arrays they refer to. -/
def HCall.view (a : HCall K) (heap : ℕ → Mat K) : Call K :=
  { a.call with noiseMatrix := a.noise.map heap, inverseNoiseMatrix := a.inverse.map heap }

/-- `find_label_issues`, `classification.py:675-947`. The data frame is computed from values only. -/
def findLabelIssuesH [NeZero K] (cfg : Settings K) (s : HState K) (a : HCall K) :
    HState K × Except String (List (IssueRow K)) :=
  match checkCall cfg (a.view s.heap) with
  | .error e => (s, .error e)
  | .ok () =>
    let (s, mask) := if cfg.lowMemory then (s, cfg.batched a.call.labels a.call.probs) else findMaskH cfg s a
    match mask.bind (issueTable cfg s.view a.call) with
    | .error e => (s, .error e)
    | .ok df => (if a.call.saveSpace then s else { s with labelIssuesMask := some (df.map (·.isLabelIssue)) }, .ok df)

/-! ## The data frame given to `fit` -/

/-- The columns of a data frame given as `label_issues`; `none` is an absent column. -/
structure Frame (K : ℕ) where
  isIssue : List Bool
  given : Option (List (Fin K)) := none
  quality : Option (List ℚ) := none
  weight : Option (List ℚ) := none
deriving DecidableEq

/-- The call `fit(..., label_issues=frame)`. -/
def FitCall.withFrame (a : FitCall K) (f : Frame K) : FitCall K :=
  { a with labelIssues := some (.table f.isIssue f.given), hasQuality := f.quality.isSome }

/-- `classification.py:499-504`: `self.label_issues_df` is the caller's frame, which gets the column `label_quality`. -/
def qualityColumn (cfg : Settings K) (s : State K) (a : FitCall K) (f : Frame K) : Except String (Frame K) :=
  match a.predProbs with
  | none => .ok f
  | some P =>
    if f.quality.isSome then .ok f
    else (qualityScores cfg s a.labels P).map (fun scores => { f with quality := some (List.ofFn scores) })

/-- `classification.py:513-542`: the same frame gets the column `sample_weight` if weights are computed. -/
def weightColumn (s : State K) (a : FitCall K) (flagged : Fin a.n → Bool) (f : Frame K) : Frame K :=
  match a.sampleWeight, a.finalWeight, s.noiseMatrix with
  | none, none, some noise =>
    if a.clfTakesWeight then
      { f with weight := some (List.ofFn (fun i =>
          if flagged i then 0 else autoWeight noise a.labelsIsList (a.labels i))) }
    else f
  | _, _, _ => f

/-- The caller's data frame after `fit(..., label_issues=frame)`, `classification.py:440-575`. -/
def frameAfter (cfg : Settings K) (s : State K) (a : FitCall K) (f : Frame K) : Frame K :=
  if a.weightInKwargs then f
  else if a.sampleWeight.isSome ∧ ¬ a.clfTakesWeight then f
  else
    match checkInputs a.toCall with
    | .error _ => f
    | .ok () =>
      match processArg a.labels (.table f.isIssue f.given) with
      | .error _ => f
      | .ok flagged =>
        match qualityColumn cfg s a f with
        | .error _ => f
        | .ok f' => weightColumn s a flagged f'

end Cleanlab.CleanLearning
