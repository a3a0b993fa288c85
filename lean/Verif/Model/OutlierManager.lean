import Verif.Model.IssueFinder

/-!
# The parameters of the outlier check, `cleanlab/datalab/internal/issue_manager/outlier.py`

How the keyword arguments given for the check in `issue_types` (or to the issue manager directly) become the parameters
of the computation.  Values are opaque (`V`); only `ood_kwargs` is looked into, by `Values.asDict`.  The computation on a
kNN graph is `Verif.Model.OutlierCheck`, the one on predicted probabilities `Verif.Model.OutlierPred`.
-/

namespace Cleanlab.OutlierManager

/-- Python values, as far as the check looks at them. -/
structure Values (V : Type) where
  /-- the items of a dictionary; `none` for anything else -/
  asDict : V → Option (List (String × V))
  /-- `DEFAULT_PARAM_DICT`, `cleanlab/outlier.py:94-103`; `none` is Python's `None` -/
  dflt : String → Option V

/-- The keys of `DEFAULT_PARAM_DICT`, `cleanlab/outlier.py:94-103`. -/
def oodNames : List String := ["k", "t", "knn", "method", "adjust_pred_probs", "confident_thresholds", "M", "gamma"]

/-- The named parameters of the constructor, `issue_manager/outlier.py:53-61`. -/
def namedParams : List String := ["k", "t", "metric", "scaling_factor", "threshold"]

variable {V : Type}

/-- What is left for `**kwargs` when the names in `named` are taken. -/
def rest (named : List String) (args : List (String × V)) : List (String × V) := args.filter (fun e => e.1 ∉ named)

/-- The attribute `params` of an estimator, `cleanlab/outlier.py:107-117`. -/
def oodParams (vals : Values V) (params : List (String × V)) (name : String) : Option V :=
  if name = "scaling_factor" then none
  else
    match params.lookup name with
    | some v => some v
    | none => if name ∈ oodNames then vals.dflt name else none

/-- `OutOfDistribution.__init__`, `cleanlab/outlier.py:105-117` with `_assert_valid_params`, lines 283-291: the attribute
`params`. -/
def oodInit (vals : Values V) (params : List (String × V)) : Except String (String → Option V) :=
  if params.all (fun e => e.1 ∈ oodNames) then .ok (oodParams vals params)
  else .error "Passed in params dict can only contain the known keys."

/-- The attributes of an `OutlierIssueManager`; `none` is the default of the constructor. -/
structure Manager (V : Type) where
  k : Option V
  t : Option V
  metric : Option V
  scalingFactor : Option V
  threshold : Option V
  /-- `self.ood.params` -/
  ood : String → Option V

/-- The value of one entry of `params`; `kten` is the default 10 of `k`. -/
def param (kten : V) (args : List (String × V)) (name : String) : Option V :=
  if name = "k" then some ((args.lookup "k").getD kten) else (rest namedParams args).lookup name

/-- `params`, `issue_manager/outlier.py:68-76`. -/
def params (kten : V) (args : List (String × V)) : List (String × V) :=
  oodNames.filterMap (fun name => (param kten args name).map (fun v => (name, v)))

/-- The constructor, `issue_manager/outlier.py:53-95`.  Since `params` always has the key `k`, it always replaces
`ood_kwargs["params"]`; any other key of `ood_kwargs` is an unexpected argument of `OutOfDistribution`. -/
def construct (vals : Values V) (kten : V) (args : List (String × V)) : Except String (Manager V) := do
  match (rest namedParams args).lookup "ood_kwargs" with
  | none => pure ()
  | some v =>
    match vals.asDict v with
    | none => throw "'ood_kwargs' object does not support item assignment"
    | some d => if d.all (fun e => e.1 = "params") then pure () else throw "unexpected keyword argument"
  let ood ← oodInit vals (params kten args)
  return {
    k := args.lookup "k"
    t := args.lookup "t"
    metric := args.lookup "metric"
    scalingFactor := args.lookup "scaling_factor"
    threshold := args.lookup "threshold"
    ood := ood }

/-- `ood_kwargs` of the caller after the constructor ran, `issue_manager/outlier.py:66,84-85`: the same dictionary. -/
def mutated (kten : V) (toDict : List (String × V) → V) (args : List (String × V)) (d : List (String × V)) :
    List (String × V) :=
  d.filter (fun e => e.1 ≠ "params") ++ [("params", toDict (params kten args))]

/-- What the check computes. -/
inductive Computation (V : Type) where
  /-- on the kNN graph, lines 109-146, with `features` (to build the graph) and `knn_graph` -/
  | graph (features knnGraph k t metric scalingFactor threshold : Option V)
  /-- on predicted probabilities, lines 147-160, by an estimator with these parameters -/
  | predProbs (p : V) (ood : String → Option V) (threshold : Option V)

/-- `_score_with_pred_probs`, `issue_manager/outlier.py:290-302`: the remaining keyword arguments are passed on to
`fit_score`, `cleanlab/outlier.py:119-126`, which knows `features`, `pred_probs`, `labels` and `verbose`. -/
def scoreWithPredProbs (labelsAreArray : Bool) (kwargs : List (String × V)) : Except String Unit :=
  if !labelsAreArray then .error "labels must be a numpy array"
  else if (kwargs.filter (fun e => e.1 ≠ "threshold")).all (fun e => e.1 = "verbose") then .ok ()
  else .error "fit_score() got an unexpected keyword argument"

/-- `find_issues`, `issue_manager/outlier.py:97-184`.  `stored` says whether a large enough graph is in the statistics
(`knn_exists`, `knn_graph_helpers.py:41-45`; a graph that is passed is always large enough). -/
def findIssues (labelsAreArray stored : Bool) (m : Manager V) (args : List (String × V)) :
    Except String (Computation V) :=
  let features := args.lookup "features"
  let kwargs := rest ["features", "pred_probs"] args
  let graph := kwargs.lookup "knn_graph"
  if features.isSome || graph.isSome || stored then
    .ok (.graph features graph m.k m.t m.metric m.scalingFactor m.threshold)
  else
    match args.lookup "pred_probs" with
    | none => .error "Either features pred_probs must be provided."
    | some p =>
      match scoreWithPredProbs labelsAreArray kwargs with
      | .error e => .error e
      | .ok () => .ok (.predProbs p m.ood m.threshold)

/-- The issue manager used directly: constructed with `init`, then `find_issues` with `args`. -/
def direct (vals : Values V) (kten : V) (labelsAreArray stored : Bool) (init args : List (String × V)) :
    Except String (Computation V) := do
  let m ← construct vals kten init
  findIssues labelsAreArray stored m args

/-- The check as `Datalab` runs it: the same arguments go to the constructor and to `find_issues`,
`issue_finder.py:296-313`. -/
def check (vals : Values V) (kten : V) (labelsAreArray stored : Bool) (args : List (String × V)) :
    Except String (Computation V) :=
  direct vals kten labelsAreArray stored args args

end Cleanlab.OutlierManager
