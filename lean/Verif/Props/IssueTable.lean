import Verif.Model.CompressInts
import Verif.Props.CleanLearning
import Mathlib.Tactic.NormNum

/-!
# C149: the issue table of CleanLearning describes each example
-/

namespace Cleanlab.Props

open Np CompressInts

theorem bmod_small (x : ℤ) (m : ℕ) (h0 : 0 ≤ x) (h : 2 * x < m) : Int.bmod x m = x := by
  rw [Int.bmod_def, Int.emod_eq_of_lt h0 (by omega)]
  rw [if_pos (by omega)]

/-- **C149.** The columns of labels keep every label, whatever the number of classes. -/
theorem C149_integers (isArray : Bool) (K : ℕ) (xs : List ℤ) (h : ∀ x ∈ xs, 0 ≤ x ∧ x < K) : compress isArray xs K = xs := by
  unfold compress
  split_ifs with ha
  swap; · rfl
  conv_rhs => rw [← List.map_id xs]
  refine List.map_congr_left (fun x hx => ?_)
  obtain ⟨h0, h1⟩ := h x hx
  unfold chosen maxInt16 maxInt32
  split_ifs with h2 h3
  · exact bmod_small x _ h0 (by push_cast; omega)
  · exact bmod_small x _ h0 (by push_cast; omega)
  · rfl

/-- **C149.** The table of every successful search has one row per example: row `i` has the given label and the most probable class
of example `i` (the first of several), and the score of its label; the columns of labels are the same after they have been stored in
a shorter type; the flags are those that the object remembers. -/
theorem C149_table {K : ℕ} [NeZero K] (cfg : CleanLearning.Settings K) (s s' : CleanLearning.State K) (a : CleanLearning.Call K)
    (df : List (CleanLearning.IssueRow K)) (h : CleanLearning.findLabelIssues cfg s a = (s', .ok df)) :
    df.length = a.n ∧
    (∃ scores, cfg.scores a.labels a.probs = .ok scores ∧ ∀ i : Fin a.n, ∃ r, df[i.val]? = some r ∧
      r.givenLabel = a.labels i ∧ (∀ k, a.probs i k ≤ a.probs i r.predictedLabel) ∧
      (∀ k < r.predictedLabel, a.probs i k < a.probs i r.predictedLabel) ∧ r.labelQuality = scores i) ∧
    compress true (df.map (fun r => (r.givenLabel.val : ℤ))) K = List.ofFn (fun i => ((a.labels i).val : ℤ)) ∧
    compress true (df.map (fun r => (r.predictedLabel.val : ℤ))) K = df.map (fun r => (r.predictedLabel.val : ℤ)) ∧
    (a.saveSpace = false → s'.labelIssuesMask = some (df.map (·.isLabelIssue))) := by
  unfold CleanLearning.findLabelIssues at h
  cases hc : CleanLearning.checkCall cfg a with
  | error e => rw [hc] at h; cases (Prod.mk.inj h).2
  | ok u =>
    rw [hc] at h
    dsimp only at h
    generalize hm : (if cfg.lowMemory then (s, cfg.batched a.labels a.probs) else CleanLearning.findMask cfg s a) = sm at h
    obtain ⟨s1, mask⟩ := sm
    dsimp only at h
    cases hmask : mask with
    | error e => rw [hmask] at h; cases (Prod.mk.inj h).2
    | ok mk =>
      rw [hmask] at h
      dsimp only [Except.bind] at h
      cases ht : CleanLearning.issueTable cfg s1 a mk with
      | error e => rw [ht] at h; cases (Prod.mk.inj h).2
      | ok df' =>
        rw [ht] at h
        obtain ⟨hs, hdf⟩ := Prod.mk.inj h
        obtain rfl := Except.ok.inj hdf
        unfold CleanLearning.issueTable CleanLearning.qualityScores at ht
        by_cases hk : s1.kwargs.isNone = true
        · rw [if_pos hk] at ht; cases ht
        rw [if_neg hk] at ht
        cases hsc : cfg.scores a.labels a.probs with
        | error e => rw [hsc] at ht; cases ht
        | ok scores =>
          rw [hsc] at ht
          have ht := (Except.ok.inj ht).symm
          have hgiven : df'.map (fun r => (r.givenLabel.val : ℤ)) = List.ofFn (fun i => ((a.labels i).val : ℤ)) := by
            rw [ht, List.map_map, List.ofFn_eq_map]
            rfl
          refine ⟨by rw [ht]; simp, ⟨scores, rfl, fun i => ?_⟩, ?_, ?_, fun hsv => ?_⟩
          · refine ⟨⟨mk i, scores i, a.labels i, argmax (a.probs i)⟩, ?_, rfl, fun k => le_argmax _ k, fun k hk => lt_argmax _ k hk, rfl⟩
            rw [ht, List.getElem?_map]
            simp
          · rw [hgiven]
            refine C149_integers _ _ _ (fun x hx => ?_)
            obtain ⟨i, rfl⟩ := List.mem_ofFn.mp hx
            exact ⟨by positivity, by exact_mod_cast (a.labels i).2⟩
          · refine C149_integers _ _ _ (fun x hx => ?_)
            obtain ⟨r, -, rfl⟩ := List.mem_map.mp hx
            exact ⟨by positivity, by exact_mod_cast r.predictedLabel.2⟩
          · rw [← hs, hsv]
            rfl

/-- The type matters: among 70000 classes the last one would become class 4463 in 16 bits, and it does not. -/
example : CompressInts.cast .int16 69999 = 4463 ∧ compress true [69999, 5] 70000 = [69999, 5] ∧ chosen 70000 = .int32 ∧
    chosen 10 = .int16 := by decide +kernel

end Cleanlab.Props
