import Verif.Model.Filter

/-!
# Model of the worker pool in `cleanlab/filter.py`

`multiprocessing.Pool.map(f, args, chunksize)` cuts the task list into chunks; the chunks finish in any
order and every finished chunk writes its results into the slots of its own tasks (CPython
`multiprocessing/pool.py`, `MapResult._set`). The order in which chunks finish is the argument `sched`.
-/

namespace Cleanlab.Filter

open Np Cleanlab.Util Cleanlab.Count Cleanlab.Rank

variable {n K : ℕ}

/-- A finished chunk `c` fills the slots of its tasks. -/
def finishChunk {β : Fin K → Type} (f : (k : Fin K) → β k) (chunksize : ℕ)
    (slots : (k : Fin K) → Option (β k)) (c : ℕ) : (k : Fin K) → Option (β k) :=
  fun k => if k.val / chunksize = c then some (f k) else slots k

/-- `Pool.map` with the chunks finishing in the order `sched`; `none` while some slot is empty (the call
has not returned). -/
def poolMap {β : Fin K → Type} (f : (k : Fin K) → β k) (chunksize : ℕ) (sched : List ℕ) :
    Option ((k : Fin K) → β k) :=
  let slots := sched.foldl (finishChunk f chunksize) (fun _ => none)
  if h : ∀ k, (slots k).isSome then some (fun k => (slots k).get (h k)) else none

/-- `filter.py:364`. -/
def jobChunksize (K nJobs : ℕ) : ℕ := max 1 (K / nJobs)

/-- The per-class masks, `filter.py:380-392` and `403-415`: a list comprehension for one job, else the pool. -/
def runJobs {β : Fin K → Type} (f : (k : Fin K) → β k) (nJobs : ℕ) (sched : List ℕ) :
    Option ((k : Fin K) → β k) :=
  if nJobs > 1 then poolMap f (jobChunksize K nJobs) sched else some f

/-- The pruning part of `find_label_issues` with `n_jobs` workers, `filter.py:339-423`; `sched1` and `sched2`
are the completion orders of the two pools. -/
def rawMaskJobs (A : ArgSort ℚ) [NeZero K] (labels : Fin n → Fin K) (P : Fin n → Fin K → ℚ)
    (args : Args K) (nJobs : ℕ) (sched1 sched2 : List ℕ) : Except String (Option (Fin n → Bool)) :=
  let byClass := fun pcm : Fin K → Fin K → ℤ => (runJobs (β := fun k => Fin (classIdx labels k).length → Bool)
    (fun k => pruneByClass A k args.minExamples (classProbs labels P k) (fun j => pcm j k))
    nJobs sched1).map (combineMasks labels)
  let byCount := fun pcm : Fin K → Fin K → ℤ => (runJobs (β := fun k => Fin (classIdx labels k).length → Bool)
    (fun k => pruneByCount A k args.minExamples (classProbs labels P k) (fun j => pcm j k))
    nJobs sched2).map (combineMasks labels)
  match args.filterBy with
  | .pruneByClass => do
    let pcm ← pruneCountMatrix A (usedJoint A labels P args) labels args.minExamples args.fracNoise args.numToRemove
      args.nanInt
    return byClass pcm
  | .pruneByNoiseRate => do
    let pcm ← pruneCountMatrix A (usedJoint A labels P args) labels args.minExamples args.fracNoise args.numToRemove
      args.nanInt
    return byCount pcm
  | .both => do
    let pcm ← pruneCountMatrix A (usedJoint A labels P args) labels args.minExamples args.fracNoise args.numToRemove
      args.nanInt
    return match byClass pcm, byCount pcm with
      | some m1, some m2 => some (fun i => m2 i && m1 i)
      | _, _ => none
  | _ => do return some (← rawMask A labels P args)

/-- `find_label_issues(..., n_jobs=nJobs)`; the inner `none` means that a pool has not returned. -/
def findLabelIssuesJobs (A : ArgSort ℚ) [NeZero K] (labels : Fin n → Fin K) (P : Fin n → Fin K → ℚ)
    (args : Args K) (nJobs : ℕ) (sched1 sched2 : List ℕ) : Except String (Option (Fin n → Bool)) :=
  if args.numToRemove.isSome ∧ args.filterBy ∈ [FilterBy.confidentLearning, .predictedNeqGiven,
      .lowNormalizedMargin, .lowSelfConfidence] then
    .error "not supported (yet) when setting 'num_to_remove_per_class'"
  else do
    let mask ← rawMaskJobs A labels P args nJobs sched1 sched2
    if args.filterBy ∈ [FilterBy.lowSelfConfidence, .lowNormalizedMargin] then return mask
    else return mask.map (fun mask i => mask i && !(reduceIssues labels P i))

end Cleanlab.Filter
