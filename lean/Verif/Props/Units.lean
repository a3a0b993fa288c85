import Verif.Props.OutlierCheck
import Verif.Props.Duplicate
import Verif.Props.RegressionFit
import Verif.Props.Outre
import Verif.Model.KnnBuild
import Verif.Model.RegressionRank

/-!
# C134: the unit of the features does not matter; C135: the zero point of a regression target does not matter

In another unit all distances are multiplied by the same positive number.
-/

namespace Cleanlab.Props

open Np Cleanlab.Knn

variable {N n : ℕ}

/-- The rows of a graph with all distances multiplied by `c`. -/
def scaleRow (c : ℚ) (row : List (Fin N × ℚ)) : List (Fin N × ℚ) := row.map (fun e => (e.1, c * e.2))

/-- A graph with all distances multiplied by `c`. -/
def scaleGraph (c : ℚ) (g : Graph N) : Graph N := fun i => scaleRow c (g i)

theorem sortOn_map {α β γ : Type} [LinearOrder α] (A : ArgSort α) (key : γ → α) (f : β → γ) (l : List β) :
    sortOn A key (l.map f) = (sortOn A (fun b => key (f b)) l).map f := by
  have aux : ∀ (m : ℕ) (h : m = l.length) (v : Fin m → γ), (∀ r, v r = f (l.get (Fin.cast h r))) →
      (A.indices (fun r => key (v r))).map v = ((A.indices (fun r => key (f (l.get r)))).map l.get).map f := by
    intro m h v hv
    subst h
    have : v = fun r => f (l.get r) := funext hv
    rw [this, List.map_map]
    rfl
  exact aux _ (List.length_map f) (l.map f).get (fun r => by simp)

theorem correctRow_scale (c : ℚ) (S : ArgSort (Fin N)) (B : ArgSort Bool) (k : ℕ) (dups : List (Fin N)) (i : ℕ)
    (row : List (Fin N × ℚ)) :
    correctRow S B k dups i (scaleRow c row) = (correctRow S B k dups i row).map (scaleRow c) := by
  have hz : ∀ l : List (Fin N), scaleRow c (l.map (fun j => (j, (0 : ℚ)))) = l.map (fun j => (j, (0 : ℚ))) := by
    intro l
    unfold scaleRow
    rw [List.map_map]
    exact List.map_congr_left (fun j _ => by simp)
  unfold correctRow
  dsimp only
  split_ifs
  · simp only [Except.map, hz]
  · simp only [Except.map, hz]
  · rfl
  · simp only [Except.map]
    congr 1
    have hl : (scaleRow c row).length = row.length := List.length_map _
    have ha : ∀ a b : List (Fin N × ℚ), scaleRow c (a ++ b) = scaleRow c a ++ scaleRow c b := fun a b => List.map_append
    rw [ha, hz, hl]
    congr 1
    have := sortOn_map B (fun e : Fin N × ℚ => decide (e.1 ∈ dups)) (fun e : Fin N × ℚ => (e.1, c * e.2)) row
    unfold scaleRow
    rw [this, List.map_take]

theorem correctSet_scale (c : ℚ) (S : ArgSort (Fin N)) (B : ArgSort Bool) (k : ℕ) (g : Graph N) (dups : List (Fin N)) :
    correctSet S B k (scaleGraph c g) dups = (correctSet S B k g dups).map (scaleGraph c) := by
  unfold correctSet
  suffices h : ∀ (l : List (Fin N × ℕ)) (acc : Graph N),
      l.foldlM (fun acc pi => do
        let r ← correctRow S B k dups pi.2 (scaleGraph c g pi.1)
        return Function.update acc pi.1 r) (scaleGraph c acc) =
      (l.foldlM (fun acc pi => do
        let r ← correctRow S B k dups pi.2 (g pi.1)
        return Function.update acc pi.1 r) acc : Except String (Graph N)).map (scaleGraph c) from h _ g
  intro l
  induction l with
  | nil => intro acc; rfl
  | cons x l ih =>
    intro acc
    rw [List.foldlM_cons, List.foldlM_cons]
    have hr : correctRow S B k dups x.2 (scaleGraph c g x.1) = (correctRow S B k dups x.2 (g x.1)).map (scaleRow c) :=
      correctRow_scale c S B k dups x.2 (g x.1)
    rw [hr]
    cases correctRow S B k dups x.2 (g x.1) with
    | error e => rfl
    | ok r =>
      dsimp only [bind, Except.bind, pure, Except.pure, Except.map]
      have hu : Function.update (scaleGraph c acc) x.1 (scaleRow c r) = scaleGraph c (Function.update acc x.1 r) := by
        funext i
        unfold scaleGraph
        by_cases h : i = x.1
        · subst h; rw [Function.update_self, Function.update_self]
        · rw [Function.update_of_ne h, Function.update_of_ne h]
      rw [hu]
      exact ih _

/-- **C134.** The neighbours listed after the correction for exact duplicates are the same in every unit, and their
distances are those of the corrected graph in the new unit. -/
theorem C134_correction (c : ℚ) (S : ArgSort (Fin N)) (B : ArgSort Bool) (k : ℕ) (g : Graph N)
    (sets : List (List (Fin N))) :
    correctDuplicates S B k (scaleGraph c g) sets = (correctDuplicates S B k g sets).map (scaleGraph c) := by
  unfold correctDuplicates
  induction sets generalizing g with
  | nil => rfl
  | cons s sets ih =>
    rw [List.foldlM_cons, List.foldlM_cons, correctSet_scale]
    cases correctSet S B k g s with
    | error e => rfl
    | ok g' => exact ih g'

/-! ### Near duplicates -/

theorem npMedian_scale {F : Type} [Field F] [LinearOrder F] [IsStrictOrderedRing F] (A : ArgSort F) (l : List F) (a : F)
    (ha : 0 < a) : npMedian A (l.map (fun x => a * x)) = (npMedian A l).map (fun x => a * x) := by
  have hs : sortOn A id (l.map (fun x => a * x)) = (sortOn A id l).map (fun x => a * x) := by
    have hp : (sortOn A id (l.map (fun x => a * x))).Perm ((sortOn A id l).map (fun x => a * x)) :=
      (sortOn_perm A id _).trans ((sortOn_perm A id l).map _).symm
    have h1 : (sortOn A id (l.map (fun x => a * x))).Pairwise (fun x y => x ≤ y) := sortOn_sorted A id _
    have h2 : ((sortOn A id l).map (fun x => a * x)).Pairwise (fun x y => x ≤ y) := by
      rw [List.pairwise_map]
      exact (sortOn_sorted A id l).imp (fun h => mul_le_mul_of_nonneg_left h ha.le)
    exact hp.eq_of_pairwise (fun x y _ _ hxy hyx => le_antisymm hxy hyx) h1 h2
  unfold npMedian
  dsimp only
  rw [hs, List.length_map]
  split_ifs
  · rw [List.getElem?_map]
  · rw [List.getElem?_map, List.getElem?_map]
    cases (sortOn A id l)[l.length / 2 - 1]? with
    | none => rfl
    | some x =>
      cases (sortOn A id l)[l.length / 2]? with
      | none => rfl
      | some y =>
        simp
        ring

theorem npMedian_const {F : Type} [Field F] [LinearOrder F] [IsStrictOrderedRing F] (A : ArgSort F) (m : ℕ) (hm : 0 < m)
    (d : F) : npMedian A (List.ofFn (fun _ : Fin m => d)) = some d := by
  obtain ⟨v, hv⟩ := Option.isSome_iff_exists.mp (npMedian_isSome A (List.ofFn (fun _ : Fin m => d)) (by
    intro h; rw [List.ofFn_eq_nil_iff] at h; omega))
  obtain ⟨h1, h2⟩ := npMedian_isMedian A _ v hv
  rw [hv]
  congr 1
  rw [List.ofFn_const] at h1 h2
  simp only [List.countP_replicate, List.length_replicate] at h1 h2
  rcases lt_trichotomy v d with h | h | h
  · simp [h] at h1 h2; omega
  · exact h
  · simp [h] at h1 h2; omega

theorem withinRadius_scale (c : ℚ) (hc : 0 < c) (g : Graph N) (radius : ℚ) :
    Duplicate.withinRadius (scaleGraph c g) (c * radius) = Duplicate.withinRadius g radius := by
  funext i
  unfold Duplicate.withinRadius scaleGraph scaleRow
  rw [List.filter_map, List.map_map]
  congr 1
  apply List.filter_congr
  intro e _
  simp only [Function.comp_apply, decide_eq_decide]
  exact mul_lt_mul_iff_right₀ hc

theorem nnDistances_scale (c : ℚ) (g : Graph N) (nn : Fin N → ℚ) (h : Duplicate.nnDistances g = .ok nn) :
    Duplicate.nnDistances (scaleGraph c g) = .ok (fun i => c * nn i) := by
  unfold Duplicate.nnDistances at h ⊢
  rw [collect_ok_iff] at h ⊢
  intro i
  have hi := h i
  unfold scaleGraph scaleRow
  rw [List.head?_map]
  cases hg : (g i).head? with
  | none => rw [hg] at hi; cases hi
  | some e =>
    rw [hg] at hi
    dsimp only at hi
    rw [← Except.ok.inj hi]
    rfl

/-- **C134 (partial).** Sets, flags and scores of the near-duplicate check are the same in every unit, as long as the median
distance is at least a millionth in both units and no distance other than 0 is below a hundred-millionth in one of them. -/
theorem C134_near_duplicates_partial (A : ArgSort ℚ) (c : ℚ) (hc : 0 < c) (g : Graph N) (t med : ℚ) (nn : Fin N → ℚ)
    (hnn : ∀ i, ∃ e, (g i).head? = some e ∧ e.2 = nn i) (hmed : npMedian A (List.ofFn nn) = some med)
    (h1 : 1 / 1000000 ≤ med) (h2 : 1 / 1000000 ≤ c * med)
    (hz : ∀ i, |nn i| ≤ 1 / 100000000 ↔ |c * nn i| ≤ 1 / 100000000) :
    ∃ r r', Duplicate.findIssues A g t = .ok r ∧ Duplicate.findIssues A (scaleGraph c g) t = .ok r' ∧
      r'.sets = r.sets ∧ r'.isIssue = r.isIssue ∧ r'.score = r.score := by
  have e1 := (nnDistances_ok g nn).mpr hnn
  have e2 := nnDistances_scale c g nn e1
  have hm' : npMedian A (List.ofFn (fun i => c * nn i)) = some (c * med) := by
    have : List.ofFn (fun i => c * nn i) = (List.ofFn nn).map (fun x => c * x) := by rw [List.map_ofFn]; rfl
    rw [this, npMedian_scale A _ c hc, hmed]; rfl
  have hs : Duplicate.neighborsWithinRadius (scaleGraph c g) (Duplicate.setThreshold t) (c * med) =
      Duplicate.neighborsWithinRadius g (Duplicate.setThreshold t) med := by
    unfold Duplicate.neighborsWithinRadius
    rw [mul_left_comm, withinRadius_scale c hc]
  have m1 : max med Duplicate.epsilon = med := max_eq_left h1
  have m2 : max (c * med) Duplicate.epsilon = c * med := max_eq_left h2
  have hp1 : (0 : ℝ) < (med : ℝ) := by
    have : 0 < med := lt_of_lt_of_le (by norm_num) h1
    exact_mod_cast this
  have hp2 : (0 : ℝ) < ((c * med : ℚ) : ℝ) := by
    have : 0 < c * med := lt_of_lt_of_le (by norm_num) h2
    exact_mod_cast this
  have hcr : (0 : ℝ) < (c : ℝ) := by exact_mod_cast hc
  unfold Duplicate.findIssues
  rw [e1, e2]
  dsimp only [bind, Except.bind]
  rw [hmed, hm']
  dsimp only
  rw [m1, m2, hs]
  unfold Duplicate.expScores
  rw [if_neg (by have := one_div_pos.mpr hp1; linarith), if_neg (by have := one_div_pos.mpr hp2; linarith)]
  refine ⟨_, _, rfl, rfl, rfl, rfl, ?_⟩
  funext i
  dsimp only
  by_cases h : |nn i| ≤ 1 / 100000000
  · rw [if_pos h, if_pos ((hz i).mp h)]
  · rw [if_neg h, if_neg (fun h' => h ((hz i).mpr h'))]
    congr 2
    push_cast
    field_simp

/-- Two points, each the nearest neighbour of the other. -/
def pairGraph (d : ℚ) : Graph 2 := ![[(1, d)], [(0, d)]]

theorem pairGraph_nn (d : ℚ) : Duplicate.nnDistances (pairGraph d) = .ok (fun _ => d) := by
  rw [nnDistances_ok]
  intro i
  fin_cases i
  · exact ⟨(1, d), rfl, rfl⟩
  · exact ⟨(0, d), rfl, rfl⟩

/-- The example in metres and in millimetres. -/
example (A : ArgSort ℚ) (t : ℚ) : ∃ r r', Duplicate.findIssues A (pairGraph 1) t = .ok r ∧
    Duplicate.findIssues A (scaleGraph 1000 (pairGraph 1)) t = .ok r' ∧
      r'.sets = r.sets ∧ r'.isIssue = r.isIssue ∧ r'.score = r.score := by
  refine C134_near_duplicates_partial A 1000 (by norm_num) (pairGraph 1) t 1 (fun _ => 1)
    ((nnDistances_ok _ _).mp (pairGraph_nn 1)) (npMedian_const A 2 (by norm_num) 1) (by norm_num) (by norm_num) (fun i => ?_)
  norm_num

/-- **C134 fails for near duplicates.** Two points at distance 1 are no near duplicates with the default threshold. In a unit
ten million times as large both are flagged, because the median distance is taken to be at least a millionth. -/
theorem C134_not_near_duplicates (A : ArgSort ℚ) :
    ∃ r r', Duplicate.findIssues A (pairGraph 1) (13 / 100) = .ok r ∧
      Duplicate.findIssues A (scaleGraph (1 / 10000000) (pairGraph 1)) (13 / 100) = .ok r' ∧
      (∀ i, r.isIssue i = false) ∧ ∀ i, r'.isIssue i = true := by
  have e1 := pairGraph_nn 1
  have e2 := nnDistances_scale (1 / 10000000) _ _ e1
  have m1 := npMedian_const A 2 (by norm_num) (1 : ℚ)
  have m2 := npMedian_const A 2 (by norm_num) (1 / 10000000 * 1 : ℚ)
  have f1 : max (1 : ℚ) Duplicate.epsilon = 1 := by unfold Duplicate.epsilon; norm_num
  have f2 : max (1 / 10000000 * 1 : ℚ) Duplicate.epsilon = 1 / 1000000 := by unfold Duplicate.epsilon; norm_num
  have s1 : ∀ i, i ∉ (List.finRange 2).flatMap
      (Duplicate.neighborsWithinRadius (pairGraph 1) (Duplicate.setThreshold (13 / 100)) 1) := by decide +kernel
  have s2 : ∀ i, i ∈ (List.finRange 2).flatMap
      (Duplicate.neighborsWithinRadius (scaleGraph (1 / 10000000) (pairGraph 1)) (Duplicate.setThreshold (13 / 100))
        (1 / 1000000)) := by decide +kernel
  unfold Duplicate.findIssues
  rw [e1, e2]
  dsimp only [bind, Except.bind]
  rw [m1, m2]
  dsimp only
  rw [f1, f2]
  unfold Duplicate.expScores
  rw [if_neg (by norm_num), if_neg (by norm_num)]
  exact ⟨_, _, rfl, rfl, fun i => decide_eq_false (s1 i), fun i => decide_eq_true (s2 i)⟩

/-! ### Outliers -/

section
open Cleanlab.Outlier Cleanlab.OutlierCheck

/-- **C134.** The outlier check succeeds in every unit or in none, and flags the same examples. -/
theorem C134_outlier_flags (A : ArgSort ℝ) (t : ℝ) (m : Option Outlier.Metric) (avg : Fin n → ℝ) (c : ℝ) (hc : 0 < c)
    (hn : 0 < n) (thr : Option ℝ) (r : OutlierCheck.Result n) (h : checkDistances A t none m avg thr = .ok r) :
    ∃ r', checkDistances A t none m (fun i => c * avg i) thr = .ok r' ∧ r'.flags = r.flags := by
  obtain ⟨r', h'⟩ := (C87_refused A t none m (fun i => c * avg i) thr hn).mpr ((C87_refused A t none m avg thr hn).mp ⟨r, h⟩)
  exact ⟨r', h', C87_scale A t t none none m m avg c hc thr r r' h h'⟩

/-- **C134 (partial).** The outlier scores are the same in every unit as well, as long as the median of the average distances
is at least a millionth in both units and no average distance counts as 0 in one of them only. -/
theorem C134_outlier_scores_partial (A : ArgSort ℝ) (t : ℝ) (m : Option Outlier.Metric) (avg : Fin n → ℝ) (c : ℝ) (hc : 0 < c)
    (thr : Option ℝ) (r r' : OutlierCheck.Result n) (h : checkDistances A t none m avg thr = .ok r)
    (h' : checkDistances A t none m (fun i => c * avg i) thr = .ok r') (med : ℝ)
    (hmed : npMedian A (List.ofFn avg) = some med) (h1 : 1 / 1000000 ≤ med) (h2 : 1 / 1000000 ≤ c * med)
    (hz : ∀ metric tol, m = some metric → tolerance metric = some tol → ∀ i, avg i < tol ↔ c * avg i < tol) :
    r'.scores = r.scores := by
  have hmed' : npMedian A (List.ofFn (fun i => c * avg i)) = some (c * med) := by
    have : List.ofFn (fun i => c * avg i) = (List.ofFn avg).map (fun x => c * x) := by rw [List.map_ofFn]; rfl
    rw [this, npMedian_scale A _ c hc, hmed]; rfl
  have heps : 100 * floatEps ≤ 1 / 1000000 := by unfold floatEps; norm_num
  have hs : scalingFactor A avg none = .ok med := by
    unfold scalingFactor
    dsimp only
    rw [hmed]
    dsimp only
    rw [max_eq_left (heps.trans h1)]
  have hs' : scalingFactor A (fun i => c * avg i) none = .ok (c * med) := by
    unfold scalingFactor
    dsimp only
    rw [hmed']
    dsimp only
    rw [max_eq_left (heps.trans h2)]
  have ht : ∀ i, transformScore (c * avg i) t (c * med) = transformScore (avg i) t med := by
    intro i
    unfold transformScore
    rw [max_eq_left h1, max_eq_left h2]
    congr 1
    have : med ≠ 0 := by have : 0 < med := lt_of_lt_of_le (by norm_num) h1
                         exact this.ne'
    field_simp
  unfold checkDistances at h h'
  rw [hs] at h
  rw [hs'] at h'
  cases hf : fromDistances A avg thr with
  | error e => rw [hf] at h; cases h
  | ok x =>
    cases hf' : fromDistances A (fun i => c * avg i) thr with
    | error e => rw [hf'] at h'; cases h'
    | ok x' =>
      rw [hf] at h
      rw [hf'] at h'
      dsimp only [bind, Except.bind, pure, Except.pure] at h h'
      rw [← Except.ok.inj h, ← Except.ok.inj h']
      funext i
      dsimp only
      cases m with
      | none => exact ht i
      | some metric =>
        dsimp only
        rw [ht]
        unfold correctPrecision
        cases htol : tolerance metric with
        | none => rfl
        | some tol =>
          dsimp only
          by_cases hi : avg i < tol
          · rw [if_pos hi, if_pos ((hz metric tol rfl htol i).mp hi)]
          · rw [if_neg hi, if_neg (fun h => hi ((hz metric tol rfl htol i).mpr h))]

/-- **C134 fails for outlier scores.** Examples at distance 1 from their neighbours have the score `exp (-1)`; in a unit ten
million times as large the score is 1, the score of an exact duplicate. -/
theorem C134_not_outlier_scores (A : ArgSort ℝ) :
    ∃ r r' : OutlierCheck.Result 2, checkDistances A 1 none (some .euclidean) (fun _ => 1) none = .ok r ∧
      checkDistances A 1 none (some .euclidean) (fun _ => 1 / 10000000 * 1) none = .ok r' ∧
      (∀ i, r.scores i = Real.exp (-1)) ∧ ∀ i, r'.scores i = 1 := by
  obtain ⟨r, h⟩ := (C87_refused A 1 none (some .euclidean) (fun _ : Fin 2 => (1 : ℝ)) none (by norm_num)).mpr (by simp)
  obtain ⟨r', h'⟩ := (C87_refused A 1 none (some .euclidean) (fun _ : Fin 2 => (1 / 10000000 * 1 : ℝ)) none
    (by norm_num)).mpr (by simp)
  refine ⟨r, r', h, h', fun i => ?_, fun i => ?_⟩
  · unfold checkDistances at h
    have hs : scalingFactor A (fun _ : Fin 2 => (1 : ℝ)) none = .ok 1 := by
      unfold scalingFactor
      dsimp only
      rw [npMedian_const A 2 (by norm_num) 1]
      dsimp only
      rw [max_eq_left (by unfold floatEps; norm_num)]
    rw [hs] at h
    cases hf : fromDistances A (fun _ : Fin 2 => (1 : ℝ)) none with
    | error e => rw [hf] at h; cases h
    | ok x =>
      rw [hf] at h
      dsimp only [bind, Except.bind, pure, Except.pure] at h
      rw [← Except.ok.inj h]
      unfold correctPrecision tolerance transformScore
      dsimp only
      rw [if_neg (by have := tolerance_euclidean.2; linarith)]
      norm_num
  · unfold checkDistances at h'
    cases hf : fromDistances A (fun _ : Fin 2 => (1 / 10000000 * 1 : ℝ)) none with
    | error e => rw [hf] at h'; cases h'
    | ok x =>
      rw [hf] at h'
      cases hs : scalingFactor A (fun _ : Fin 2 => (1 / 10000000 * 1 : ℝ)) none with
      | error e => rw [hs] at h'; cases h'
      | ok s =>
        rw [hs] at h'
        dsimp only [bind, Except.bind, pure, Except.pure] at h'
        rw [← Except.ok.inj h']
        unfold correctPrecision tolerance
        dsimp only
        rw [if_pos]
        rw [Real.lt_sqrt (by norm_num)]
        unfold floatEps
        norm_num

/-- Three examples in metres and in millimetres. -/
example (A : ArgSort ℝ) : ∃ r r' : OutlierCheck.Result 3, checkDistances A 1 none none (fun _ => 1) none = .ok r ∧
    checkDistances A 1 none none (fun _ => 1000 * 1) none = .ok r' ∧ r'.flags = r.flags ∧ r'.scores = r.scores := by
  obtain ⟨r, h⟩ := (C87_refused A 1 none none (fun _ : Fin 3 => (1 : ℝ)) none (by norm_num)).mpr (by simp)
  obtain ⟨r', h', hf⟩ := C134_outlier_flags A 1 none (fun _ : Fin 3 => (1 : ℝ)) 1000 (by norm_num) (by norm_num) none r h
  exact ⟨r, r', h, h', hf, C134_outlier_scores_partial A 1 none _ 1000 (by norm_num) none r r' h h' 1
    (npMedian_const A 3 (by norm_num) 1) (by norm_num) (by norm_num) (fun _ _ h => by cases h)⟩

end

/-! ### C135: regression targets -/

section
open Cleanlab.Regression

/-- **C135.** A constant added to all targets and all predictions does not change the residual scores. -/
theorem C135_residual (c : ℝ) (y p : List ℝ) :
    residualScores (y.map (fun v => v + c)) (p.map (fun v => v + c)) = residualScores y p := by
  unfold residualScores
  rw [List.zipWith_map]
  congr 1
  funext a b
  congr 2
  rw [add_sub_add_right_eq_sub]

/-- **C135.** It does not change the OUTRE scores either. -/
theorem C135_outre (A : ArgSort ℝ) (c : ℝ) (y p : Fin n → ℝ) :
    outreScores A (fun i => y i + c) (fun i => p i + c) = outreScores A y p := by
  have hd : ∀ i j, outreDist (fun i => y i + c) (fun i => p i + c) i j = outreDist y p i j := by
    intro i j
    unfold outreDist
    have : (fun r => p r + c - (y r + c)) = fun r => p r - y r := by funext r; ring
    rw [this, standardize_add y, standardize_add y]
  have ha : outreAvg A (fun i => y i + c) (fun i => p i + c) = outreAvg A y p := by
    funext i
    unfold outreAvg outreNearest
    rw [show outreDist (fun i => y i + c) (fun i => p i + c) i = outreDist y p i from funext (hd i)]
  unfold outreScores
  rw [ha]

/-- **C135.** Datalab's label check for regression on predictions gives the same flags, scores and summary with both scores;
the reported targets and predictions are the shifted ones. -/
theorem C135_check (A : ArgSort ℝ) (c : ℝ) (y p : Fin n → ℝ) (threshold : ℝ)
    (score : (Fin n → ℝ) → (Fin n → ℝ) → Except String (Fin n → ℝ))
    (hs : score = outreScores A ∨ score = fun y p => .ok (fun i => Real.exp (-|p i - y i|))) :
    withPredictions A score (fun i => y i + c) (fun i => p i + c) threshold =
      (withPredictions A score y p threshold).map (fun r => { r with
        given := fun i => y i + c
        predicted := fun i => p i + c }) := by
  have h : score (fun i => y i + c) (fun i => p i + c) = score y p := by
    rcases hs with rfl | rfl
    · exact C135_outre A c y p
    · dsimp only
      congr 1
      funext i
      rw [add_sub_add_right_eq_sub]
  unfold withPredictions
  rw [h]
  cases score y p with
  | error e => rfl
  | ok s =>
    dsimp only
    cases npMedian A (List.ofFn s) with
    | none => rfl
    | some m => rfl

/-- **C135.** Another unit changes the residual scores but not their order. -/
theorem C135_unit_order (c : ℝ) (hc : 0 < c) (y p y' p' : ℝ) :
    Real.exp (-|c * p - c * y|) ≤ Real.exp (-|c * p' - c * y'|) ↔ Real.exp (-|p - y|) ≤ Real.exp (-|p' - y'|) := by
  rw [Real.exp_le_exp, Real.exp_le_exp, neg_le_neg_iff, neg_le_neg_iff, ← mul_sub, ← mul_sub, abs_mul, abs_mul,
    abs_of_pos hc, mul_le_mul_iff_right₀ hc]

/-- Temperatures in degrees Celsius and in Kelvin. -/
example (A : ArgSort ℝ) : ∃ s, outreScores A (fun i => (![1, 2, 3, 4] : Fin 4 → ℝ) i + 273.15)
    (fun i => (![2, 2, 5, 4.1] : Fin 4 → ℝ) i + 273.15) = .ok s ∧ outreScores A ![1, 2, 3, 4] ![2, 2, 5, 4.1] = .ok s := by
  obtain ⟨s, hs⟩ := (C104_range A (![1, 2, 3, 4] : Fin 4 → ℝ) ![2, 2, 5, 4.1]).1 (by norm_num)
  exact ⟨s, by rw [C135_outre, hs], hs⟩

end

end Cleanlab.Props
