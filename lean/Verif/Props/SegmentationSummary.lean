import Verif.Model.SegmentationSummary
import Verif.Props.Segmentation

/-!
# C66: summary of swapped classes in segmentation
-/

namespace Cleanlab.Props

open Np Cleanlab.Count Cleanlab.Segmentation Cleanlab.Spec

variable {N K h w : ℕ}

/-- The number of flagged pixels with given class `g` whose predicted class is `p`. -/
def numSwaps [NeZero K] (issues : Stack N h w Bool) (labels : Stack N h w (Fin K)) (P : Stack N h w (Fin K → ℚ))
    (g p : Fin K) : ℕ :=
  open Classical in
  (Finset.univ.filter (fun x : Fin N × Fin h × Fin w =>
    issues x.1 x.2.1 x.2.2 = true ∧ labels x.1 x.2.1 x.2.2 = g ∧ IsPrediction (P x.1 x.2.1 x.2.2) p)).card

theorem foldl_countStep [NeZero K] (labels : Stack N h w (Fin K)) (P : Stack N h w (Fin K → ℚ)) (exclude : List (Fin K))
    (l : List (Pixel N h w)) (count : Count K) (g p : Fin K) :
    ((l.foldl (countStep labels P exclude) count g).elim 0 (fun r => r p)) =
      (count g).elim 0 (fun r => r p) + if p ∈ exclude then 0 else
        l.countP (fun x => decide (labels x.1 x.2.1 x.2.2 = g ∧ argmax (P x.1 x.2.1 x.2.2) = p)) := by
  induction l generalizing count with
  | nil => simp
  | cons x l ih =>
    rw [List.foldl_cons, ih, List.countP_cons]
    have hstep : (countStep labels P exclude count x g).elim 0 (fun r => r p) = (count g).elim 0 (fun r => r p) +
        if p ∈ exclude then 0 else
          if decide (labels x.1 x.2.1 x.2.2 = g ∧ argmax (P x.1 x.2.1 x.2.2) = p) = true then 1 else 0 := by
      unfold countStep
      by_cases hg : labels x.1 x.2.1 x.2.2 = g
      · simp only [hg, true_and, decide_eq_true_eq]
        rw [Function.update_self]
        by_cases hp : argmax (P x.1 x.2.1 x.2.2) = p
        · rw [hp]
          by_cases he : p ∈ exclude <;> cases count g <;> simp [he]
        · by_cases he : p ∈ exclude <;> by_cases he' : argmax (P x.1 x.2.1 x.2.2) ∈ exclude <;> cases count g <;>
            simp [he, he', hp, Function.update_of_ne (Ne.symm hp)]
      · simp only [hg, false_and, decide_false, Bool.false_eq_true, if_false, ite_self, add_zero]
        rw [Function.update_of_ne (Ne.symm hg)]
    rw [hstep]
    by_cases he : p ∈ exclude
    · simp [he]
    · simp only [he, if_false]; omega

theorem mem_infoRows (count : Count K) (r : Fin K × Fin K × ℕ) :
    r ∈ infoRows count ↔ 0 < r.2.2 ∧ r.2.2 = (count r.1).elim 0 (fun row => row r.2.1) := by
  obtain ⟨g, p, c⟩ := r
  unfold infoRows
  rw [List.mem_flatMap]
  simp only [List.mem_finRange, true_and]
  constructor
  · rintro ⟨g', hr⟩
    cases hc : count g' with
    | none => rw [hc] at hr; simp at hr
    | some row =>
      rw [hc] at hr
      simp only [List.mem_filterMap, List.mem_finRange, true_and] at hr
      obtain ⟨p', hp⟩ := hr
      split_ifs at hp with h0
      simp only [Option.some.injEq, Prod.mk.injEq] at hp
      obtain ⟨rfl, rfl, rfl⟩ := hp
      simp [hc, h0]
  · rintro ⟨h0, hc⟩
    refine ⟨g, ?_⟩
    cases hcg : count g with
    | none => rw [hcg] at hc; simp at hc; omega
    | some row =>
      rw [hcg] at hc
      simp only [Option.elim_some] at hc
      simp only [List.mem_filterMap, List.mem_finRange, true_and]
      refine ⟨p, ?_⟩
      rw [if_pos (by omega), hc]

theorem nodup_infoRows (count : Count K) : ((infoRows count).map (fun r => (r.1, r.2.1))).Nodup := by
  unfold infoRows
  rw [List.map_flatMap, List.nodup_flatMap]
  constructor
  · intro g _
    cases count g with
    | none => simp
    | some row =>
      rw [List.map_filterMap]
      refine (List.nodup_finRange K).filterMap ?_
      intro a b c ha hb
      simp only [Option.mem_def] at ha hb
      split_ifs at ha hb <;> simp_all
      exact congrArg Prod.snd (ha.trans hb.symm)
  · refine (List.nodup_finRange K).imp (fun {g g'} hne => ?_)
    show List.Disjoint _ _
    intro x hx hx'
    have key : ∀ g, x ∈ (match count g with
        | none => []
        | some row => (List.finRange K).filterMap fun p => if row p > 0 then some (g, p, row p) else none).map
          (fun r : Fin K × Fin K × ℕ => (r.1, r.2.1)) → x.1 = g := by
      intro g hx
      cases hc : count g with
      | none => rw [hc] at hx; simp at hx
      | some row =>
        rw [hc] at hx
        simp only [List.mem_map, List.mem_filterMap, List.mem_finRange, true_and] at hx
        obtain ⟨r, ⟨p, hp⟩, rfl⟩ := hx
        split_ifs at hp
        simp only [Option.some.injEq] at hp
        rw [← hp]
    exact hne ((key g hx).symm.trans (key g' hx'))

theorem countIssues_eq [NeZero K] (issues : Stack N h w Bool) (labels : Stack N h w (Fin K))
    (P : Stack N h w (Fin K → ℚ)) (exclude : List (Fin K)) (g p : Fin K) :
    (countIssues issues labels P exclude g).elim 0 (fun r => r p) =
      if p ∈ exclude then 0 else numSwaps issues labels P g p := by
  unfold countIssues
  rw [foldl_countStep]
  simp only [Option.elim_none, Nat.zero_add]
  congr 1
  unfold issueCoords numSwaps
  rw [List.countP_filter, List.countP_eq_length_filter]
  set L := (List.finRange N).flatMap fun n => (List.finRange h).flatMap fun i => (List.finRange w).map fun j => (n, i, j)
    with hL
  have hnd : L.Nodup := by
    rw [hL, List.nodup_flatMap]
    constructor
    · intro n _
      rw [List.nodup_flatMap]
      constructor
      · intro i _
        exact (List.nodup_finRange w).map (fun a b hab => by simpa using hab)
      · refine (List.nodup_finRange h).imp (fun {i i'} hne => ?_)
        show List.Disjoint _ _
        intro x hx hx'
        simp only [List.mem_map] at hx hx'
        obtain ⟨_, _, rfl⟩ := hx
        obtain ⟨_, _, he⟩ := hx'
        simp only [Prod.mk.injEq] at he
        exact hne he.2.1.symm
    · refine (List.nodup_finRange N).imp (fun {n n'} hne => ?_)
      show List.Disjoint _ _
      intro x hx hx'
      simp only [List.mem_flatMap, List.mem_map] at hx hx'
      obtain ⟨_, _, _, _, rfl⟩ := hx
      obtain ⟨_, _, _, _, he⟩ := hx'
      simp only [Prod.mk.injEq] at he
      exact hne he.1.symm
  rw [← List.toFinset_card_of_nodup (hnd.filter _)]
  congr 1
  ext x
  simp only [List.mem_toFinset, List.mem_filter, Finset.mem_filter, Finset.mem_univ, true_and, Bool.and_eq_true,
    decide_eq_true_eq, argmax_eq_iff_isPrediction]
  have : x ∈ L := by
    rw [hL]
    simp only [List.mem_flatMap, List.mem_map, List.mem_finRange, true_and]
    exact ⟨x.1, x.2.1, x.2.2, rfl⟩
  tauto

/-- **C66**: the report lists a swap only with its exact number of flagged pixels, each swap at most once and most
frequent first, and no swap predicted as an excluded class; every swap that occurs and is not excluded by its predicted
class is listed, or `top` swaps at least as frequent are. -/
theorem C66_swaps_partial [NeZero K] (A : ArgSort ℤ) (issues : Stack N h w Bool) (labels : Stack N h w (Fin K))
    (P : Stack N h w (Fin K → ℚ)) (exclude : List (Fin K)) (top : ℕ) :
    let rows := commonLabelIssues A issues labels P (some exclude) (some top)
    (∀ r ∈ rows, r.2.2 = numSwaps issues labels P r.1 r.2.1 ∧ 0 < r.2.2 ∧ r.2.1 ∉ exclude) ∧
    (rows.map (fun r => (r.1, r.2.1))).Nodup ∧
    rows.Pairwise (fun r s => s.2.2 ≤ r.2.2) ∧
    ∀ g p, p ∉ exclude → 0 < numSwaps issues labels P g p →
      (g, p, numSwaps issues labels P g p) ∈ rows ∨
      rows.length = top ∧ ∀ r ∈ rows, numSwaps issues labels P g p ≤ r.2.2 := by
  intro rows
  set info := infoRows (countIssues issues labels P exclude) with hinfo
  set S := sortOn A (fun r => -(r.2.2 : ℤ)) info with hS
  have hrows : rows = S.take top := rfl
  have hsorted : S.Pairwise (fun r s => s.2.2 ≤ r.2.2) :=
    (sortOn_sorted A (fun r : Fin K × Fin K × ℕ => -(r.2.2 : ℤ)) info).imp (fun {a b} hab => by omega)
  refine ⟨?_, ?_, ?_, ?_⟩
  · intro r hr
    have hm : r ∈ info := (mem_sortOn A _ info r).mp (List.mem_of_mem_take hr)
    rw [hinfo, mem_infoRows, countIssues_eq] at hm
    obtain ⟨h0, hc⟩ := hm
    split_ifs at hc with he
    · omega
    · exact ⟨hc, h0, he⟩
  · rw [hrows]
    refine List.Nodup.sublist ((List.take_sublist _ _).map _) ?_
    exact ((sortOn_perm A _ info).map _).nodup_iff.mpr (nodup_infoRows _)
  · exact hsorted.sublist (List.take_sublist _ _)
  · intro g p hp h0
    have hm : (g, p, numSwaps issues labels P g p) ∈ S := by
      rw [hS, mem_sortOn, hinfo, mem_infoRows]
      refine ⟨h0, ?_⟩
      rw [countIssues_eq, if_neg hp]
    rw [← List.take_append_drop top S, List.mem_append] at hm
    rcases hm with hm | hm
    · exact Or.inl hm
    · refine Or.inr ⟨?_, ?_⟩
      · rw [hrows, List.length_take]
        have := List.length_pos_of_mem hm
        rw [List.length_drop] at this
        omega
      · intro r hr
        rw [← List.take_append_drop top S] at hsorted
        exact (List.pairwise_append.mp hsorted).2.2 r hr _ hm

/-- **C66**: without `exclude` and `top` the report lists the 20 most frequent swaps: every swap that occurs is listed
unless 20 swaps at least as frequent are. -/
theorem C66_default_partial [NeZero K] (A : ArgSort ℤ) (issues : Stack N h w Bool) (labels : Stack N h w (Fin K))
    (P : Stack N h w (Fin K → ℚ)) :
    let rows := commonLabelIssues A issues labels P none none
    (∀ r ∈ rows, r.2.2 = numSwaps issues labels P r.1 r.2.1 ∧ 0 < r.2.2) ∧ rows.length ≤ 20 ∧
    ∀ g p, 0 < numSwaps issues labels P g p →
      (g, p, numSwaps issues labels P g p) ∈ rows ∨
      rows.length = 20 ∧ ∀ r ∈ rows, numSwaps issues labels P g p ≤ r.2.2 := by
  intro rows
  have hrows : rows = commonLabelIssues A issues labels P (some []) (some 20) := rfl
  have h := C66_swaps_partial A issues labels P [] 20
  rw [← hrows] at h
  obtain ⟨h1, -, -, h4⟩ := h
  exact ⟨fun r hr => ⟨(h1 r hr).1, (h1 r hr).2.1⟩, List.length_take_le 20 _,
    fun g p h0 => h4 g p (List.not_mem_nil) h0⟩

/-- **C66** fails: a class in `exclude` is reported as a given class. -/
theorem C66_not_exclude :
    commonLabelIssues (stableSort ℤ) (N := 1) (h := 1) (w := 2) (fun _ _ _ => true) (fun _ _ _ => (0 : Fin 2))
      (fun _ _ _ => ![1/10, 9/10]) (some [0]) none = [(0, 1, 2)] := by
  decide +kernel

/-- **C66**: `filter_by_class` keeps exactly the flagged pixels given or predicted as the class. -/
theorem C66_filter_by_class [NeZero K] (c : Fin K) (issues : Stack N h w Bool) (labels : Stack N h w (Fin K))
    (P : Stack N h w (Fin K → ℚ)) (n : Fin N) (i : Fin h) (j : Fin w) :
    filterByClass c issues labels P n i j = true ↔
      issues n i j = true ∧ (labels n i j = c ∨ IsPrediction (P n i j) c) := by
  unfold filterByClass
  rw [← argmax_eq_iff_isPrediction]
  simp only [Bool.or_eq_true, Bool.and_eq_true, decide_eq_true_eq]
  tauto

example : filterByClass (N := 1) (h := 1) (w := 1) (1 : Fin 2) (fun _ _ _ => true) (fun _ _ _ => 0)
    (fun _ _ _ => ![1/10, 9/10]) 0 0 0 = true := by decide +kernel

end Cleanlab.Props
