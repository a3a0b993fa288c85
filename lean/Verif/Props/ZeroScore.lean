import Verif.Props.Copies
import Verif.Props.FarExamples

/-!
# C225: examples with near-duplicate score 0
-/

namespace Cleanlab.Props

open Np Cleanlab.Knn Cleanlab.Duplicate

variable {N M : ℕ}

/-- The rows of the graph give the distances that are used for these features unless others are asked for, and begin with a nearest
other example. -/
structure BuiltFrom (f : Fin N → Fin M → ℝ) (g : Graph N) : Prop where
  dist : ∀ i, ∀ e ∈ g i, (e.2 : ℝ) = usualDistance (f i) (f e.1)
  first : ∀ i, ∃ e, (g i).head? = some e ∧ e.1 ≠ i ∧ ∀ j, j ≠ i → (e.2 : ℝ) ≤ usualDistance (f i) (f j)

theorem scores_of_built (A : ArgSort ℚ) (f : Fin N → Fin M → ℝ) (g : Graph N) (hg : BuiltFrom f g) (t : ℚ) (hN : 0 < N) :
    ∃ (r : Report N) (e : Fin N → Fin N × ℚ), findIssues A g t = .ok r ∧ (∀ i, (g i).head? = some (e i)) ∧
      (∀ i, (e i).1 ≠ i) ∧ (∀ i, ((e i).2 : ℝ) = usualDistance (f i) (f (e i).1)) ∧
      (∀ i j, j ≠ i → ((e i).2 : ℝ) ≤ usualDistance (f i) (f j)) ∧ ∀ i, r.score i = 0 ↔ (e i).2 ≤ 1 / 100000000 := by
  choose e he h1 h2 using hg.first
  obtain ⟨r, med, hr, -, -⟩ := C37_median A g t hN (fun i => (e i).2) (fun i => ⟨e i, he i, rfl⟩)
  have hd : ∀ i, ((e i).2 : ℝ) = usualDistance (f i) (f (e i).1) := fun i => hg.dist i (e i) (List.mem_of_head? (he i))
  have hnn : ∀ i, 0 ≤ (e i).2 := fun i => by
    have := usualDistance_nonneg (f i) (f (e i).1)
    rw [← hd] at this
    exact_mod_cast this
  exact ⟨r, e, hr, he, h1, hd, h2, (C70_scores A g t r hr (fun i => (e i).2) (fun i => ⟨e i, he i, rfl⟩) hnn).2.2⟩

theorem usualDistance_multiple (hM : 3 < M) (x : Fin M → ℝ) (hx : x ≠ 0) (c : ℝ) (hc : 0 < c) :
    usualDistance x (fun m => c * x m) = 0 := by
  have h1 := usualDistance_self x (fun _ => hx)
  unfold usualDistance at h1 ⊢
  rw [if_pos hM] at h1 ⊢
  rw [← h1]
  have := cosine_lengths 1 c one_pos hc x x
  simpa using this

/-- With more than three features, an example of which another is a multiple is flagged and has score 0. -/
theorem C225_multiples (A : ArgSort ℚ) (hM : 3 < M) (f : Fin N → Fin M → ℝ) (g : Graph N) (hg : BuiltFrom f g) (t : ℚ) (ht : 0 < t)
    (p q : Fin N) (hpq : q ≠ p) (hp : f p ≠ 0) (c : ℝ) (hc : 0 < c) (h : f q = fun m => c * f p m) :
    ∃ r, findIssues A g t = .ok r ∧ r.score p = 0 ∧ r.isIssue p = true := by
  obtain ⟨r, e, hr, he, h1, hd, h2, hs⟩ := scores_of_built A f g hg t (Fin.pos p)
  have hzero : (e p).2 = 0 := by
    have a := h2 p q hpq
    rw [h, usualDistance_multiple hM (f p) hp c hc] at a
    have b := usualDistance_nonneg (f p) (f (e p).1)
    rw [← hd] at b
    exact_mod_cast le_antisymm a b
  refine ⟨r, hr, (hs p).mpr (by rw [hzero]; norm_num), ?_⟩
  have hmem : ((e p).1, (0 : ℚ)) ∈ g p := by
    rw [← hzero]
    exact List.mem_of_head? (he p)
  have hin : (e p).1 ∈ r.sets p := (C37_sets A _ t r hr p (e p).1).mpr (Or.inl ⟨0, hmem, radius_pos A _ t ht r hr⟩)
  exact ((C37_symmetric A _ t r hr).2.1 p).mpr (List.ne_nil_of_mem hin)

/-- Four examples with four features each: two pairs, where the second of each pair has the first twice. -/
noncomputable def doubledRows (i m : Fin 4) : ℝ := if m.val = i.val / 2 then (if i.val % 2 = 0 then 1 else 2) else 0

def doubledGraph : Graph 4 := ![[(1, 0), (2, 1), (3, 1)], [(0, 0), (2, 1), (3, 1)], [(3, 0), (0, 1), (1, 1)], [(2, 0), (0, 1), (1, 1)]]

theorem pair_distance (i j : Fin 4) :
    usualDistance (doubledRows i) (doubledRows j) = ((if i.val / 2 = j.val / 2 then 0 else 1 : ℚ) : ℝ) := by
  have h2 : Real.sqrt (2 * 2) = 2 := by rw [Real.sqrt_mul_self (by norm_num)]
  unfold usualDistance
  rw [if_pos (by norm_num)]
  unfold cosineDistance doubledRows
  fin_cases i <;> fin_cases j <;> simp [Fin.sum_univ_four, h2]

theorem pair_built : BuiltFrom doubledRows doubledGraph := by
  constructor
  · intro i e he
    rw [pair_distance]
    have : ∀ i : Fin 4, ∀ e ∈ doubledGraph i, e.2 = if i.val / 2 = e.1.val / 2 then 0 else 1 := by decide +kernel
    rw [this i e he]
  · intro i
    have : ∀ i : Fin 4, ∃ e ∈ (doubledGraph i).head?, e.1 ≠ i ∧ ∀ j, j ≠ i → e.2 ≤ if i.val / 2 = j.val / 2 then 0 else 1 := by
      decide +kernel
    obtain ⟨e, h1, h2, h3⟩ := this i
    refine ⟨e, h1, h2, fun j hj => ?_⟩
    rw [pair_distance]
    exact_mod_cast h3 j hj

/-- **C225** refuted: the four examples are all different, and each is flagged with score 0. -/
theorem C225_not_exact (A : ArgSort ℚ) : Function.Injective doubledRows ∧ BuiltFrom doubledRows doubledGraph ∧
    ∃ r, findIssues A doubledGraph (13 / 100) = .ok r ∧ r.score 0 = 0 ∧ r.isIssue 0 = true := by
  refine ⟨fun i j h => ?_, pair_built, ?_⟩
  · have h0 := congrFun h 0
    have h1 := congrFun h 1
    revert h0 h1
    unfold doubledRows
    fin_cases i <;> fin_cases j <;> norm_num
  · refine C225_multiples A (by norm_num) doubledRows doubledGraph pair_built _ (by norm_num) 0 1 (by decide) (fun h => ?_) 2 (by norm_num) ?_
    · have := congrFun h 0
      norm_num [doubledRows] at this
    · funext m
      fin_cases m <;> norm_num [doubledRows]

/-- What a score of 0 does mean. With up to three features, there is another example which agrees in every feature to `10⁻⁸`; with more
features, there is one whose direction agrees in the same sense. -/
theorem C225_close_partial (A : ArgSort ℚ) (f : Fin N → Fin M → ℝ) (g : Graph N) (hg : BuiltFrom f g) (t : ℚ) (r : Report N)
    (hr : findIssues A g t = .ok r) (i : Fin N) :
    r.score i = 0 ↔ ∃ j, j ≠ i ∧ usualDistance (f i) (f j) ≤ 1 / 100000000 := by
  obtain ⟨r', e, hr', he, h1, hd, h2, hs⟩ := scores_of_built A f g hg t (Fin.pos i)
  rw [hr] at hr'
  cases Except.ok.inj hr'
  rw [hs]
  constructor
  · intro h
    refine ⟨(e i).1, h1 i, ?_⟩
    rw [← hd]
    have : ((e i).2 : ℝ) ≤ ((1 / 100000000 : ℚ) : ℝ) := by exact_mod_cast h
    refine this.trans (le_of_eq (by norm_num))
  · rintro ⟨j, hj, h⟩
    have : ((e i).2 : ℝ) ≤ ((1 / 100000000 : ℚ) : ℝ) := ((h2 i j hj).trans h).trans (le_of_eq (by norm_num))
    exact_mod_cast this

/-- With up to three features that are whole numbers, a score of 0 means an exact duplicate. -/
theorem C225_whole_partial (A : ArgSort ℚ) (hM : M ≤ 3) (f : Fin N → Fin M → ℝ) (hf : ∀ i m, ∃ z : ℤ, f i m = z) (g : Graph N)
    (hg : BuiltFrom f g) (t : ℚ) (r : Report N) (hr : findIssues A g t = .ok r) (i : Fin N) :
    r.score i = 0 ↔ ∃ j, j ≠ i ∧ f j = f i := by
  rw [C225_close_partial A f g hg t r hr i]
  constructor
  · rintro ⟨j, hj, h⟩
    refine ⟨j, hj, funext fun m => ?_⟩
    unfold usualDistance at h
    rw [if_neg (by omega)] at h
    unfold euclideanDistance at h
    rw [Real.sqrt_le_left (by norm_num)] at h
    have hm : (f i m - f j m) * (f i m - f j m) ≤ ∑ m, (f i m - f j m) * (f i m - f j m) :=
      Finset.single_le_sum (f := fun m => (f i m - f j m) * (f i m - f j m)) (fun m _ => mul_self_nonneg _) (Finset.mem_univ m)
    obtain ⟨a, ha⟩ := hf i m
    obtain ⟨b, hb⟩ := hf j m
    rw [ha, hb] at hm ⊢
    have h3 : ((a - b : ℤ) : ℝ) * ((a - b : ℤ) : ℝ) < 1 := by
      push_cast
      refine lt_of_le_of_lt (hm.trans h) (by norm_num)
    have h4 : (a - b) * (a - b) < 1 := by exact_mod_cast h3
    have h5 : a - b = 0 := by
      by_contra hne
      have := mul_self_pos.mpr hne
      omega
    have : a = b := by omega
    rw [this]
  · rintro ⟨j, hj, h⟩
    refine ⟨j, hj, ?_⟩
    rw [h, usualDistance_self _ (fun h3 => absurd h3 (by omega))]
    norm_num

/-- Three points on a line, two of which coincide. -/
noncomputable def coincidingPoints (i : Fin 3) (_ : Fin 1) : ℝ := if i.val = 2 then 5 else 0

def coincidingGraph : Graph 3 := ![[(1, 0), (2, 5)], [(0, 0), (2, 5)], [(0, 5), (1, 5)]]

theorem three_distance (i j : Fin 3) :
    usualDistance (coincidingPoints i) (coincidingPoints j) = ((if i.val / 2 = j.val / 2 then 0 else 5 : ℚ) : ℝ) := by
  have h5 : Real.sqrt (5 * 5) = 5 := by rw [Real.sqrt_mul_self (by norm_num)]
  unfold usualDistance
  rw [if_neg (by norm_num)]
  unfold euclideanDistance coincidingPoints
  fin_cases i <;> fin_cases j <;> simp [h5]

example (A : ArgSort ℚ) : ∃ r, findIssues A coincidingGraph (13 / 100) = .ok r ∧ r.score 0 = 0 ∧ r.score 2 ≠ 0 := by
  have hg : BuiltFrom coincidingPoints coincidingGraph := by
    constructor
    · intro i e he
      rw [three_distance]
      have : ∀ i : Fin 3, ∀ e ∈ coincidingGraph i, e.2 = if i.val / 2 = e.1.val / 2 then 0 else 5 := by decide +kernel
      rw [this i e he]
    · intro i
      have : ∀ i : Fin 3, ∃ e ∈ (coincidingGraph i).head?, e.1 ≠ i ∧ ∀ j, j ≠ i → e.2 ≤ if i.val / 2 = j.val / 2 then 0 else 5 := by
        decide +kernel
      obtain ⟨e, h1, h2, h3⟩ := this i
      refine ⟨e, h1, h2, fun j hj => ?_⟩
      rw [three_distance]
      exact_mod_cast h3 j hj
  obtain ⟨r, -, hr, -⟩ := scores_of_built A _ _ hg (13 / 100) (by norm_num)
  have h := C225_whole_partial A (by norm_num) _ (fun i m => by
    unfold coincidingPoints
    split_ifs
    · exact ⟨5, by norm_num⟩
    · exact ⟨0, by norm_num⟩) _ hg _ r hr
  refine ⟨r, hr, (h 0).mpr ⟨1, by decide, by unfold coincidingPoints; rfl⟩, fun h2 => ?_⟩
  obtain ⟨j, hj, he⟩ := (h 2).mp h2
  have hval : j.val ≠ 2 := fun hv => hj (Fin.ext hv)
  have := congrFun he 0
  unfold coincidingPoints at this
  rw [if_neg hval] at this
  norm_num at this

end Cleanlab.Props
