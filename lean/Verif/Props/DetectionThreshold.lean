import Verif.Props.DetectionScore

/-!
# C214: object detection threshold selection

Unlike its counterparts for segmentation (C30) and token classification (C32), `object_detection.rank.issues_from_scores`
does what its documentation says.
-/

namespace Cleanlab.Props

open Np Cleanlab Cleanlab.Detection

/-- **C214.** `issues_from_scores` returns exactly the images whose score is at most the threshold, each once, the lowest
scores first. -/
theorem C214_selected (A : ArgSort ℝ) (scores : List ℝ) (t : ℝ) (ht : t ≤ 1) :
    ∃ idx, Detection.issuesFromScores A scores t = .ok idx ∧ idx.Nodup ∧
      (∀ i, i ∈ idx ↔ ∃ x, scores[i]? = some x ∧ x ≤ t) ∧
      idx.Pairwise (fun i j => ∀ x y, scores[i]? = some x → scores[j]? = some y → x ≤ y) := by
  classical
  have key : ∀ z ∈ (List.range scores.length).zip scores, scores[z.1]? = some z.2 := by
    intro z hz
    obtain ⟨n, hn, he⟩ := List.getElem_of_mem hz
    subst he
    simp only [List.length_zip, List.length_range, min_self] at hn
    simp [hn]
  have back : ∀ i x, scores[i]? = some x → (i, x) ∈ (List.range scores.length).zip scores := by
    intro i x h
    obtain ⟨hi, rfl⟩ := List.getElem?_eq_some_iff.mp h
    refine List.mem_iff_getElem.mpr ⟨i, by simpa using hi, by simp⟩
  refine ⟨_, by unfold Detection.issuesFromScores; rw [if_neg (by linarith)], ?_, ?_, ?_⟩
  · have hperm := (sortOn_perm A (fun x : ℕ × ℝ => x.2)
      (((List.range scores.length).zip scores).filter (fun x => x.2 ≤ t))).map (fun x => x.1)
    rw [hperm.nodup_iff]
    refine List.Nodup.sublist (List.filter_sublist.map _) ?_
    rw [List.map_fst_zip (by simp)]
    exact List.nodup_range
  · intro i
    rw [List.mem_map]
    constructor
    · rintro ⟨z, hz, rfl⟩
      rw [mem_sortOn, List.mem_filter] at hz
      exact ⟨z.2, key z hz.1, by simpa using hz.2⟩
    · rintro ⟨x, hx, hle⟩
      refine ⟨(i, x), ?_, rfl⟩
      rw [mem_sortOn, List.mem_filter]
      exact ⟨back i x hx, by simpa using hle⟩
  · rw [List.pairwise_map]
    refine (sortOn_sorted A (fun x : ℕ × ℝ => x.2) _).imp_of_mem ?_
    intro z w hz hw hzw x y hx hy
    rw [mem_sortOn, List.mem_filter] at hz hw
    rw [key z hz.1] at hx
    rw [key w hw.1] at hy
    rw [← Option.some.inj hx, ← Option.some.inj hy]
    exact hzw

/-- **C214, refused.** A threshold above 1 is refused. -/
theorem C214_refused (A : ArgSort ℝ) (scores : List ℝ) (t : ℝ) (ht : 1 < t) :
    ∃ e, Detection.issuesFromScores A scores t = .error e := by
  classical
  exact ⟨_, by unfold Detection.issuesFromScores; rw [if_pos ht]⟩

/-- **C214, all images.** With the scores of valid images and the threshold 1 all images are returned, each once. -/
theorem C214_ranking {K : ℕ} (A : ArgSort ℝ) (images : List (Image ℝ K)) (hp : ∀ im ∈ images, ProbsValid im) (hne : images ≠ [])
    (hK : 0 < K) : ∃ s idx, Detection.labelQualityScores none true images = .ok s ∧ Detection.issuesFromScores A s 1 = .ok idx ∧
      idx.Perm (List.range images.length) := by
  obtain ⟨s, hs, hlen, hr⟩ := C73_range none true images hp hne hK ⟨_, rfl⟩
  obtain ⟨idx, h, hn, hm, _⟩ := C214_selected A s 1 le_rfl
  refine ⟨s, idx, hs, h, (List.perm_ext_iff_of_nodup hn List.nodup_range).mpr (fun i => ?_)⟩
  rw [hm, List.mem_range, ← hlen]
  constructor
  · rintro ⟨x, hx, _⟩
    exact (List.getElem?_eq_some_iff.mp hx).1
  · intro hi
    exact ⟨s[i], List.getElem?_eq_getElem hi, (hr _ (List.getElem_mem hi)).2⟩

/-- Three images: the score equal to the threshold counts, and the lower score comes first. -/
example (A : ArgSort ℝ) : Detection.issuesFromScores A [9/10, 1/10, 1/20] (1/10) = .ok [2, 1] := by
  obtain ⟨idx, h, hn, hm, hs⟩ := C214_selected A [9/10, 1/10, 1/20] (1/10) (by norm_num)
  rw [h]
  have hp : idx.Perm [2, 1] := by
    refine (List.perm_ext_iff_of_nodup hn (by decide)).mpr (fun i => ?_)
    rw [hm]
    rcases i with _ | _ | _ | i <;> simp <;> norm_num
  have hlen := hp.length_eq
  match idx, hlen with
  | [a, b], _ =>
    rcases List.perm_pair.mp hp with h | h
    · rw [h]
    · injection h with h1 h2
      injection h2 with h2 _
      subst h1 h2
      have := (List.pairwise_cons.mp hs).1 2 (by simp) (1/10) (1/20) (by simp) (by simp)
      norm_num at this

end Cleanlab.Props
