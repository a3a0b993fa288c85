import Verif.Model.Jobs
import Verif.Props.Filter

/-!
# C11: the result of `find_label_issues` does not depend on `n_jobs` nor on the order of task completion
-/

namespace Cleanlab.Props

open Np Cleanlab.Util Cleanlab.Count Cleanlab.Rank Cleanlab.Filter Cleanlab.Spec

variable {n K : ℕ}

theorem foldl_finishChunk {β : Fin K → Type} (f : (k : Fin K) → β k) (cs : ℕ) (sched : List ℕ)
    (slots : (k : Fin K) → Option (β k)) (k : Fin K) :
    sched.foldl (finishChunk f cs) slots k = if k.val / cs ∈ sched then some (f k) else slots k := by
  induction sched generalizing slots with
  | nil => simp
  | cons c l ih =>
    rw [List.foldl_cons, ih]
    unfold finishChunk
    by_cases h1 : k.val / cs ∈ l
    · simp [h1]
    · by_cases h2 : k.val / cs = c
      · simp [h2]
      · simp [h1, h2]

/-- A pool in which every chunk has finished at least once, in whatever order, returns the results of the
sequential loop. -/
theorem runJobs_eq {β : Fin K → Type} (f : (k : Fin K) → β k) (nJobs : ℕ) (sched : List ℕ)
    (h : ∀ k : Fin K, k.val / jobChunksize K nJobs ∈ sched) : runJobs f nJobs sched = some f := by
  unfold runJobs
  split_ifs with hj
  · unfold poolMap
    simp only [foldl_finishChunk]
    rw [dif_pos (by intro k; rw [if_pos (h k)]; rfl)]
    congr 1
    funext k
    simp [h k]
  · rfl

/-- **C11.** For every number of workers and all orders in which the chunks of the two pools finish, once
all chunks have finished `find_label_issues` gives what the sequential program gives (the same mask or
the same error). -/
theorem C11_jobs_independent (A : ArgSort ℚ) [NeZero K] (labels : Fin n → Fin K) (P : Fin n → Fin K → ℚ)
    (args : Args K) (nJobs : ℕ) (numChunks : ℕ) (hchunks : K ≤ numChunks * jobChunksize K nJobs)
    (sched1 sched2 : List ℕ) (h1 : sched1.Perm (List.range numChunks))
    (h2 : sched2.Perm (List.range numChunks)) :
    findLabelIssuesJobs A labels P args nJobs sched1 sched2 =
      (findLabelIssues A labels P args).map some := by
  have hmem : ∀ (s : List ℕ), s.Perm (List.range numChunks) → ∀ k : Fin K, k.val / jobChunksize K nJobs ∈ s := by
    intro s hs k
    rw [hs.mem_iff, List.mem_range]
    exact Nat.div_lt_of_lt_mul (by rw [Nat.mul_comm]; exact k.isLt.trans_le hchunks)
  have hraw : rawMaskJobs A labels P args nJobs sched1 sched2 = (rawMask A labels P args).map some := by
    unfold rawMaskJobs
    simp only [runJobs_eq _ nJobs _ (hmem sched1 h1), runJobs_eq _ nJobs _ (hmem sched2 h2)]
    unfold rawMask
    cases args.filterBy
    case pruneByNoiseRate | pruneByClass | both =>
      simp only
      cases pruneCountMatrix A (usedJoint A labels P args) labels args.minExamples args.fracNoise
        args.numToRemove args.nanInt <;> rfl
    case lowNormalizedMargin =>
      simp only
      cases lowScoreIndices A labels P .normalizedMargin <;> rfl
    case lowSelfConfidence =>
      simp only
      cases lowScoreIndices A labels P .selfConfidence <;> rfl
    all_goals rfl
  unfold findLabelIssuesJobs findLabelIssues
  rw [hraw]
  by_cases hc : args.numToRemove.isSome ∧ args.filterBy ∈ [FilterBy.confidentLearning, .predictedNeqGiven,
      .lowNormalizedMargin, .lowSelfConfidence]
  · rw [if_pos hc, if_pos hc]; rfl
  · rw [if_neg hc, if_neg hc]
    cases rawMask A labels P args with
    | error e => rfl
    | ok m =>
      simp only [Except.map, bind, Except.bind]
      split_ifs <;> rfl

/-- Non-vacuity: five classes, two workers, chunks of two classes, finishing in the order 2, 0, 1. -/
example : jobChunksize 5 2 = 2 ∧ 5 ≤ 3 * jobChunksize 5 2 ∧ [2, 0, 1].Perm (List.range 3) := by decide

/-- The per-class masks may also be combined in any order of classes. -/
theorem C11_combine_order (labels : Fin n → Fin K) (masks : ClassMasks labels) (order : List (Fin K))
    (h : order.Perm (List.finRange K)) :
    order.foldl (fun m k => if (classIdx labels k).length > 1 then assignClass labels k (masks k) m else m)
      (fun _ => false) = combineMasks labels masks := by
  funext i
  unfold combineMasks
  have hi : i ∈ classIdx labels (labels i) := (mem_classIdx labels (labels i) i).mpr rfl
  rw [foldl_combine labels masks _ _ i hi, foldl_combine labels masks _ _ i hi]
  simp only [h.mem_iff]

end Cleanlab.Props
