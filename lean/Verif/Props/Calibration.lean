import Verif.Model.ActiveLearning
import Verif.Props.Crowdlab
import Verif.Props.ValueCounts
import Verif.Props.Token
import Mathlib.Analysis.SpecialFunctions.Pow.Real
import Mathlib.Tactic.FinCases
import Mathlib.Tactic.IntervalCases

/-!
# C82, C83: temperature scaling and the choice of the temperature
-/

namespace Cleanlab.Props

open Np Cleanlab.Util Cleanlab.Rank Cleanlab.Multiannotator Cleanlab.Spec Cleanlab.Count

variable {n M K : ℕ}

/-! ## C82 -/

theorem smallConst_pos : 0 < smallConst := by unfold smallConst; positivity

theorem smallConst_le_one : smallConst ≤ 1 := by unfold smallConst; norm_num

theorem tau_pos (T : ℝ) : 0 < max T (1 / 10 ^ 6) := lt_max_of_lt_right (by norm_num)

/-- The weight of a class before normalisation. -/
noncomputable def tempWeight (T : ℝ) (p : Fin K → ℝ) (k : Fin K) : ℝ :=
  Real.exp (Real.log (max (p k) smallConst) / max T (1 / 10 ^ 6))

theorem softmaxLog_sum [NeZero K] (T : ℝ) (p : Fin K → ℝ) (hp : ∃ k, 0 < p k) : ∑ k, softmaxLog T p k = 1 := by
  unfold softmaxLog
  simp only
  rw [← Finset.sum_div]
  apply div_self
  apply ne_of_gt
  obtain ⟨k, hk⟩ := hp
  apply Finset.sum_pos'
  · intro j _; split_ifs
    exacts [(Real.exp_pos _).le, le_rfl]
  · exact ⟨k, Finset.mem_univ k, by rw [if_pos hk]; exact Real.exp_pos _⟩

theorem tempScale_eq [NeZero K] (T : ℝ) (p : Fin K → ℝ) (k : Fin K) :
    tempScale T p k = tempWeight T p k / ∑ j, tempWeight T p j := by
  have hc : ∀ k, 0 < max (p k) smallConst := fun k => lt_max_of_lt_right smallConst_pos
  have hS : 0 < ∑ j, max (p j) smallConst := Finset.sum_pos (fun j _ => hc j) ⟨0, Finset.mem_univ _⟩
  have hq : ∀ k, 0 < max (p k) smallConst / ∑ j, max (p j) smallConst := fun k => div_pos (hc k) hS
  unfold tempScale
  simp only
  rw [softmaxLog_sum T _ ⟨0, hq 0⟩, div_one]
  unfold softmaxLog
  simp only [hq, if_true]
  have he : ∀ k, Real.exp (Real.log (max (p k) smallConst / ∑ j, max (p j) smallConst) / max T (1 / 10 ^ 6)) =
      tempWeight T p k * Real.exp (-Real.log (∑ j, max (p j) smallConst) / max T (1 / 10 ^ 6)) := by
    intro k
    rw [tempWeight, ← Real.exp_add, Real.log_div (hc k).ne' hS.ne', ← add_div, sub_eq_add_neg]
  simp only [he]
  rw [← Finset.sum_mul, mul_div_mul_right _ _ (Real.exp_pos _).ne']

theorem tempWeight_pos (T : ℝ) (p : Fin K → ℝ) (k : Fin K) : 0 < tempWeight T p k := Real.exp_pos _

theorem tempWeight_sum_pos [NeZero K] (T : ℝ) (p : Fin K → ℝ) : 0 < ∑ j, tempWeight T p j :=
  Finset.sum_pos (fun j _ => tempWeight_pos T p j) ⟨0, Finset.mem_univ _⟩

/-- **C82**: whatever the input row and the temperature, the scaled row is a distribution with positive entries. -/
theorem C82_distribution [NeZero K] (T : ℝ) (p : Fin K → ℝ) :
    IsDistribution (tempScale T p) ∧ ∀ k, 0 < tempScale T p k := by
  have h : ∀ k, 0 < tempScale T p k := fun k => by
    rw [tempScale_eq]; exact div_pos (tempWeight_pos T p k) (tempWeight_sum_pos T p)
  refine ⟨⟨fun k => (h k).le, ?_⟩, h⟩
  simp only [tempScale_eq]
  rw [← Finset.sum_div, div_self (tempWeight_sum_pos T p).ne']

/-- **C82**: scaling preserves the order of the classes of a row; probabilities below `1e-30` count as `1e-30`. -/
theorem C82_order [NeZero K] (T : ℝ) (p : Fin K → ℝ) (a b : Fin K) :
    tempScale T p a < tempScale T p b ↔ max (p a) (1 / 10 ^ 30) < max (p b) (1 / 10 ^ 30) := by
  have hc : ∀ k, 0 < max (p k) smallConst := fun k => lt_max_of_lt_right smallConst_pos
  rw [tempScale_eq, tempScale_eq, div_lt_div_iff_of_pos_right (tempWeight_sum_pos T p), tempWeight, tempWeight,
    Real.exp_lt_exp, div_lt_div_iff_of_pos_right (tau_pos T), Real.log_lt_log_iff (hc a) (hc b)]
  rfl

/-- **C82**: temperature `1` changes no row of probabilities that are at least `1e-30`. -/
theorem C82_identity [NeZero K] (p : Fin K → ℝ) (hp : IsDistribution p) (hs : ∀ k, 1 / 10 ^ 30 ≤ p k) :
    tempScale 1 p = p := by
  have hw : ∀ k, tempWeight 1 p k = p k := fun k => by
    unfold tempWeight
    rw [max_eq_left (show smallConst ≤ p k from hs k), max_eq_left (by norm_num), div_one,
      Real.exp_log (lt_of_lt_of_le smallConst_pos (hs k))]
  funext k
  rw [tempScale_eq]
  simp only [hw]
  rw [hp.2, div_one]

/-- **C82**: a higher temperature never increases the probability of the predicted class, a lower one never
decreases it. -/
theorem C82_smoothing [NeZero K] (T T' : ℝ) (hT : T ≤ T') (p : Fin K → ℝ) (k : Fin K) (hk : ∀ j, p j ≤ p k) :
    tempScale T' p k ≤ tempScale T p k := by
  have hc : ∀ k, 0 < max (p k) smallConst := fun k => lt_max_of_lt_right smallConst_pos
  rw [tempScale_eq, tempScale_eq, div_le_div_iff₀ (tempWeight_sum_pos _ _) (tempWeight_sum_pos _ _),
    Finset.mul_sum, Finset.mul_sum]
  apply Finset.sum_le_sum
  intro j _
  unfold tempWeight
  rw [← Real.exp_add, ← Real.exp_add, Real.exp_le_exp]
  have hl : Real.log (max (p j) smallConst) ≤ Real.log (max (p k) smallConst) :=
    Real.log_le_log (hc j) (max_le_max (hk j) le_rfl)
  have hτ : max T (1 / 10 ^ 6) ≤ max T' (1 / 10 ^ 6) := max_le_max hT le_rfl
  have h1 : (Real.log (max (p k) smallConst) - Real.log (max (p j) smallConst)) / max T' (1 / 10 ^ 6) ≤
      (Real.log (max (p k) smallConst) - Real.log (max (p j) smallConst)) / max T (1 / 10 ^ 6) :=
    div_le_div_of_nonneg_left (by linarith) (tau_pos T) hτ
  rw [sub_div, sub_div] at h1
  linarith

/-- The row `(3/4, 1/4)` at temperature `1/2`: `(9/10, 1/10)`. -/
example : tempScale (1 / 2) ![3 / 4, 1 / 4] 0 = 9 / 10 := by
  have h : ∀ k : Fin 2, tempWeight (1 / 2) ![3 / 4, 1 / 4] k = (![3 / 4, 1 / 4] k) ^ 2 := by
    intro k
    have hk : smallConst ≤ (![3 / 4, 1 / 4] : Fin 2 → ℝ) k := by
      unfold smallConst; fin_cases k <;> norm_num
    have hpos : 0 < (![3 / 4, 1 / 4] : Fin 2 → ℝ) k := lt_of_lt_of_le smallConst_pos hk
    unfold tempWeight
    rw [max_eq_left hk, max_eq_left (by norm_num), show ∀ x : ℝ, x / (1 / 2) = x * (2 : ℕ) by intro x; push_cast; ring,
      mul_comm, Real.exp_nat_mul, Real.exp_log hpos]
  rw [tempScale_eq]
  simp only [h, Fin.sum_univ_two]
  norm_num

/-! ## C83 -/

/-- A row at temperature `T`: the powers `p k ^ (1 / T)`, normalised. -/
noncomputable def atTemp (T : ℝ) (p : Fin K → ℝ) (k : Fin K) : ℝ := p k ^ (1 / T) / ∑ j, p j ^ (1 / T)

/-- Mean over the examples of the cross entropy (to base `K`) between the distribution of the labels the
annotators gave and the predictions at temperature `T`; logarithms of probabilities below `1e-30` are cut off. -/
noncomputable def annotatorEntropy (L : Annotations n M K) (P : Fin n → Fin K → ℝ) (T : ℝ) : ℝ :=
  (∑ i, -(∑ k, (numVotes L i k : ℝ) / numAnnotators L i * Real.log (max (atTemp T (P i) k) (1 / 10 ^ 30))) /
    Real.log K) / n

/-- The temperatures of the coarse search. -/
def IsCoarse (T : ℝ) : Prop := T ∈ [1 / 10, 1 / 5, 1 / 2, 4 / 5, 1, 2, 3, 5, 8]

theorem softmaxLog_eq (T : ℝ) (hT : 1 / 10 ≤ T) (p : Fin K → ℝ) (hp : ∀ k, 0 ≤ p k) (k : Fin K) :
    softmaxLog T p k = atTemp T p k := by
  have h : ∀ k, (if 0 < p k then Real.exp (Real.log (p k) / max T (1 / 10 ^ 6)) else 0) = p k ^ (1 / T) := by
    intro k
    rw [max_eq_left (by norm_num at hT ⊢; linarith)]
    split_ifs with h
    · rw [Real.rpow_def_of_pos h]; congr 1; ring
    · have : p k = 0 := le_antisymm (not_lt.mp h) (hp k)
      rw [this, Real.zero_rpow]
      have : 0 < T := by linarith
      positivity
  unfold softmaxLog atTemp
  simp only [h]

theorem isCoarse_coarseRange (j : Fin 9) : IsCoarse (coarseRange j) := by
  unfold IsCoarse coarseRange
  fin_cases j <;> simp

theorem exists_coarseRange (T : ℝ) (hT : IsCoarse T) : ∃ j, coarseRange j = T := by
  unfold IsCoarse at hT
  simp only [List.mem_cons, List.not_mem_nil, or_false] at hT
  rcases hT with h | h | h | h | h | h | h | h | h
  exacts [⟨0, h.symm⟩, ⟨1, h.symm⟩, ⟨2, h.symm⟩, ⟨3, h.symm⟩, ⟨4, h.symm⟩, ⟨5, h.symm⟩, ⟨6, h.symm⟩, ⟨7, h.symm⟩,
    ⟨8, h.symm⟩]

/-- All temperatures tried in the fine search. -/
theorem fineRange_bounds (j : Fin 9) (T : ℝ) (hT : T ∈ fineRange j) : 1 / 10 ≤ T ∧ T ≤ 8 := by
  unfold fineRange at hT
  rw [List.mem_append] at hT
  rcases hT with hT | hT
  · split_ifs at hT with hj
    · obtain ⟨t, ht, rfl⟩ := List.mem_map.mp hT
      have ht := List.mem_range.mp ht
      fin_cases j <;> interval_cases t <;> simp [coarseRange] at hj ⊢ <;> norm_num
    · cases hT
  · split_ifs at hT with hj
    · obtain ⟨t, ht, rfl⟩ := List.mem_map.mp hT
      have ht := List.mem_range.mp ht
      fin_cases j <;> interval_cases t <;> simp [coarseRange] at hj ⊢ <;> norm_num
    · cases hT

theorem length_labels (L : Annotations n M K) (i : Fin n) :
    ((List.finRange M).filterMap (fun m => L i m)).length = numAnnotators L i := by
  rw [← numAnnotations_eq, numAnnotations, List.length_filterMap_eq_countP]

theorem count_labels (L : Annotations n M K) (i : Fin n) (k : Fin K) :
    (((List.finRange M).filterMap (fun m => L i m)).map Fin.val).count k.val = numVotes L i k := by
  rw [List.count_map_of_injective _ _ Fin.val_injective, ← labelCount_eq, labelCount, List.count_filterMap]

/-- What the code minimises, when the counts of the annotators' labels are right. -/
theorem meanEntropy_eq (isInt : Bool) (L : Annotations n M K) (P : Fin n → Fin K → ℝ) (hn : 0 < n) (hK : K ≠ 1)
    (hv : ∀ i, ∃ m, L i m ≠ none) (hP : ∀ i k, 0 ≤ P i k)
    (hc : ∀ i, valueCounts isInt (((List.finRange M).filterMap (fun m => L i m)).map Fin.val) (some K) =
      .ok ((List.range K).map
        (fun k => (((List.finRange M).filterMap (fun m => L i m)).map Fin.val).count k)))
    (T : ℝ) (hT : 1 / 10 ≤ T) : meanEntropy isInt L P T = .ok (annotatorEntropy L P T) := by
  have hi : ∀ i, softCrossEntropy isInt L (fun i => softmaxLog T (P i)) i =
      .ok (-(∑ k, (numVotes L i k : ℝ) / numAnnotators L i *
        Real.log (max (atTemp T (P i) k) (1 / 10 ^ 30))) / Real.log K) := by
    intro i
    have hne : numAnnotators L i ≠ 0 := by
      obtain ⟨m, hm⟩ := hv i
      exact (Finset.card_pos.mpr ⟨m, by simp [hm]⟩).ne'
    unfold softCrossEntropy
    simp only [length_labels]
    rw [if_neg (by simp [hne, hK]), hc i]
    simp only [List.length_map, List.length_range, dite_true, List.getElem_map, List.getElem_range, count_labels]
    simp only [softmaxLog_eq T hT (P i) (hP i)]
    rfl
  unfold meanEntropy
  rw [if_neg (by omega), (collect_ok_iff _ _).mpr hi]
  rfl

/-- The search, for any function that is to be minimised. -/
theorem bestTemp_spec (isInt : Bool) (L : Annotations n M K) (P : Fin n → Fin K → ℝ) (f : ℝ → ℝ)
    (hf : ∀ T, 1 / 10 ≤ T → meanEntropy isInt L P T = .ok (f T)) :
    ∃ T, bestTemp isInt L P = .ok T ∧ T ∈ fineRange (argmin (fun j => f (coarseRange j))) ∧
      ∀ T' ∈ fineRange (argmin (fun j => f (coarseRange j))), f T ≤ f T' := by
  have hcr : ∀ j, (1 : ℝ) / 10 ≤ coarseRange j := by
    intro j; unfold coarseRange; fin_cases j <;> norm_num
  have h1 : collect (fun j => meanEntropy isInt L P (coarseRange j)) = .ok (fun j => f (coarseRange j)) :=
    (collect_ok_iff _ _).mpr (fun j => hf _ (hcr j))
  unfold bestTemp
  rw [h1]
  show ∃ T, ((fineRange (argmin fun j => f (coarseRange j))).mapM (meanEntropy isInt L P) >>= _) = _ ∧ _
  rw [mapM_eq_map _ _ f (fun T hT => hf T (fineRange_bounds _ T hT).1)]
  generalize hj : argmin (fun j => f (coarseRange j)) = j
  have hzip : (fineRange j).zip ((fineRange j).map f) = (fineRange j).map (fun T => (T, f T)) := by
    rw [List.zip_map_right, List.zip_eq_zipWith, List.zipWith_self, List.map_map]; rfl
  have hne : fineRange j ≠ [] := by
    unfold fineRange
    by_cases h : j.val < 8
    · rw [if_pos h]; simp
    · rw [if_pos (by omega)]; simp
  dsimp only [bind, Except.bind]
  rw [hzip]
  cases ha : ((fineRange j).map (fun T => (T, f T))).argmin Prod.snd with
  | none => rw [List.argmin_eq_none] at ha; simp [hne] at ha
  | some x =>
    obtain ⟨T, hT, rfl⟩ := List.mem_map.mp (List.argmin_mem ha)
    refine ⟨T, rfl, hT, fun T' hT' => ?_⟩
    have := List.le_of_mem_argmin (f := Prod.snd) (a := (T', f T')) (List.mem_map.mpr ⟨T', hT', rfl⟩) ha
    exact this

theorem argmin_coarse (f : ℝ → ℝ) (T' : ℝ) (hT' : IsCoarse T') :
    f (coarseRange (argmin (fun j => f (coarseRange j)))) ≤ f T' := by
  obtain ⟨j, rfl⟩ := exists_coarseRange T' hT'
  exact argmin_le (fun j => f (coarseRange j)) j

/-- The optimum of the coarse search is tried again unless it is the last temperature, and it is not the last one
if an earlier one is as good. -/
theorem best_le_coarse (f : ℝ → ℝ) (T0 : ℝ) (h0 : IsCoarse T0) (h8 : T0 ≠ 8) (hle : f T0 ≤ f 8) (T : ℝ)
    (hbest : ∀ T' ∈ fineRange (argmin (fun j => f (coarseRange j))), f T ≤ f T') (T' : ℝ) (hT' : IsCoarse T') :
    f T ≤ f T' := by
  refine le_trans (hbest (coarseRange (argmin (fun j => f (coarseRange j)))) ?_) (argmin_coarse f T' hT')
  have hlast : (argmin (fun j => f (coarseRange j))).val < 8 := by
    by_contra hge
    have h8' : argmin (fun j => f (coarseRange j)) = 8 := Fin.ext (by
      have := (argmin (fun j => f (coarseRange j))).isLt
      show _ = 8
      omega)
    obtain ⟨j, rfl⟩ := exists_coarseRange T0 h0
    have hj : j < 8 := lt_of_le_of_ne (by omega) (fun h => h8 (by rw [h]; rfl))
    have := argmin_lt (fun j => f (coarseRange j)) j (by rw [h8']; exact hj)
    rw [h8'] at this
    exact absurd hle (not_le.mpr this)
  unfold fineRange
  rw [if_pos hlast]
  apply List.mem_append_right
  exact List.mem_map.mpr ⟨0, by simp, by simp⟩

theorem integer_counts (L : Annotations n M K) (hv : ∀ i, ∃ m, L i m ≠ none) (i : Fin n) :
    valueCounts true (((List.finRange M).filterMap (fun m => L i m)).map Fin.val) (some K) =
      .ok ((List.range K).map
        (fun k => (((List.finRange M).filterMap (fun m => L i m)).map Fin.val).count k)) := by
  apply C18_integer_labels
  · intro a ha
    obtain ⟨k, -, rfl⟩ := List.mem_map.mp ha
    exact k.isLt
  · obtain ⟨m, hm⟩ := hv i
    obtain ⟨k, hk⟩ := Option.ne_none_iff_exists'.mp hm
    exact List.ne_nil_of_mem (List.mem_map.mpr ⟨k, List.mem_filterMap.mpr ⟨m, List.mem_finRange _, hk⟩, rfl⟩)

/-- **C83 (partial)**: for annotations with an integer dtype, the temperature found lies between `0.1` and `8` and
is at least as good as every temperature of the coarse search, with respect to the distribution of the annotators'
labels, provided some temperature of the coarse search other than the last is at least as good as the last. Without
this proviso see `C83_not_coarse_optimal`; for other dtypes, see `C83_not_float_labels`. -/
theorem C83_best_temperature_partial (L : Annotations n M K) (P : Fin n → Fin K → ℝ) (hn : 0 < n) (hK : K ≠ 1)
    (hv : ∀ i, ∃ m, L i m ≠ none) (hP : ∀ i k, 0 ≤ P i k) :
    ∃ T, bestTemp true L P = .ok T ∧ 1 / 10 ≤ T ∧ T ≤ 8 ∧
      ((∃ T0, IsCoarse T0 ∧ T0 ≠ 8 ∧ annotatorEntropy L P T0 ≤ annotatorEntropy L P 8) →
        ∀ T', IsCoarse T' → annotatorEntropy L P T ≤ annotatorEntropy L P T') := by
  obtain ⟨T, h1, h2, h3⟩ := bestTemp_spec true L P (annotatorEntropy L P)
    (meanEntropy_eq true L P hn hK hv hP (integer_counts L hv))
  exact ⟨T, h1, (fineRange_bounds _ T h2).1, (fineRange_bounds _ T h2).2,
    fun ⟨T0, hc, h8, hle⟩ T' hT' => best_le_coarse _ T0 hc h8 hle T h3 T' hT'⟩

/-! ### One example with two classes -/

/-- The probabilities `(c / (c + 1), 1 / (c + 1))`. -/
noncomputable def rowOf (c : ℝ) : Fin 2 → ℝ := ![c / (c + 1), 1 / (c + 1)]

theorem rowOf_dist (c : ℝ) (hc : 0 < c) : IsDistribution (rowOf c) := by
  refine ⟨fun k => ?_, ?_⟩
  · fin_cases k <;> simp [rowOf] <;> positivity
  · simp only [rowOf, Fin.sum_univ_two, Matrix.cons_val_zero, Matrix.cons_val_one]
    field_simp

theorem atTemp_rowOf (c : ℝ) (hc : 0 < c) (T : ℝ) :
    atTemp T (rowOf c) 0 = c ^ (1 / T) / (c ^ (1 / T) + 1) ∧ atTemp T (rowOf c) 1 = 1 / (c ^ (1 / T) + 1) := by
  have h1 : (c / (c + 1)) ^ (1 / T) = c ^ (1 / T) / (c + 1) ^ (1 / T) := Real.div_rpow hc.le (by linarith) _
  have h2 : (1 / (c + 1)) ^ (1 / T) = 1 / (c + 1) ^ (1 / T) := by
    rw [Real.div_rpow zero_le_one (by linarith), Real.one_rpow]
  have h3 : 0 < (c + 1) ^ (1 / T) := Real.rpow_pos_of_pos (by linarith) _
  have h4 : 0 < c ^ (1 / T) := Real.rpow_pos_of_pos hc _
  unfold atTemp rowOf
  simp only [Fin.sum_univ_two, Matrix.cons_val_zero, Matrix.cons_val_one, h1, h2]
  constructor <;> field_simp

theorem inv_mem (T : ℝ) (hT : 1 / 10 ≤ T) : 0 < 1 / T ∧ 1 / T ≤ 10 := by
  have h0 : 0 < T := by linarith
  refine ⟨by positivity, ?_⟩
  rw [div_le_iff₀ h0]
  linarith

/-- For `1 < c ≤ 9` no probability is cut off. -/
theorem pow_range (c : ℝ) (hc : 1 < c) (hc9 : c ≤ 9) (T : ℝ) (hT : 1 / 10 ≤ T) :
    1 < c ^ (1 / T) ∧ c ^ (1 / T) ≤ 9 ^ 10 := by
  obtain ⟨h0, h1⟩ := inv_mem T hT
  refine ⟨Real.one_lt_rpow hc h0, ?_⟩
  calc c ^ (1 / T) ≤ c ^ (10 : ℝ) := Real.rpow_le_rpow_of_exponent_le hc.le h1
    _ ≤ 9 ^ (10 : ℝ) := Real.rpow_le_rpow (by linarith) hc9 (by norm_num)
    _ = 9 ^ 10 := by rw [← Real.rpow_natCast]; norm_num

theorem pow_anti (c : ℝ) (hc : 1 < c) (T T' : ℝ) (hT : 1 / 10 ≤ T) (h : T < T') : c ^ (1 / T') < c ^ (1 / T) := by
  apply Real.rpow_lt_rpow_of_exponent_lt hc
  exact one_div_lt_one_div_of_lt (by linarith) h

theorem max_first (s : ℝ) (h : 1 < s) : max (s / (s + 1)) (1 / 10 ^ 30) = s / (s + 1) := by
  apply max_eq_left
  rw [le_div_iff₀ (by linarith)]
  nlinarith

theorem max_second (s : ℝ) (h : 1 < s) (h9 : s ≤ 9 ^ 10) : max (1 / (s + 1)) (1 / 10 ^ 30) = 1 / (s + 1) := by
  apply max_eq_left
  apply one_div_le_one_div_of_le (by linarith)
  have : (9 : ℝ) ^ 10 + 1 ≤ 10 ^ 30 := by norm_num
  linarith

/-- If larger temperatures are strictly better, the search ends between `5` and `8`. -/
theorem search_of_anti (f : ℝ → ℝ) (hf : ∀ T T', 1 / 10 ≤ T → T < T' → f T' < f T) (T : ℝ)
    (hT : T ∈ fineRange (argmin (fun j => f (coarseRange j)))) : 5 ≤ T ∧ T < 8 := by
  have h8 : argmin (fun j => f (coarseRange j)) = 8 := by
    by_contra hne
    have hle := argmin_le (fun j => f (coarseRange j)) 8
    generalize argmin (fun j => f (coarseRange j)) = j at hne hle
    refine absurd (hf (coarseRange j) (coarseRange 8) ?_ ?_) (not_lt.mpr hle)
    · unfold coarseRange; fin_cases j <;> norm_num
    · unfold coarseRange; fin_cases j <;> simp at hne ⊢ <;> norm_num
  rw [h8] at hT
  unfold fineRange at hT
  rw [if_pos (by decide), if_neg (by decide), List.append_nil] at hT
  obtain ⟨t, ht, rfl⟩ := List.mem_map.mp hT
  have ht := List.mem_range.mp ht
  interval_cases t <;> simp [coarseRange] <;> norm_num

/-- **C83**: the fine search. If the `j`-th temperature of the coarse search is its first optimum, the result is at
least as good as the points that divide the interval from there to the next temperature of the coarse search in four,
and as the points that divide the interval from the temperature before in four, except (for the last temperature, `8`,
see `C83_not_coarse_optimal`) the optimum itself. -/
theorem C83_fine_search (L : Annotations n M K) (P : Fin n → Fin K → ℝ) (hn : 0 < n) (hK : K ≠ 1)
    (hv : ∀ i, ∃ m, L i m ≠ none) (hP : ∀ i k, 0 ≤ P i k) (j : Fin 9)
    (hj : ∀ i, annotatorEntropy L P (coarseRange j) ≤ annotatorEntropy L P (coarseRange i))
    (hj' : ∀ i, i < j → annotatorEntropy L P (coarseRange j) < annotatorEntropy L P (coarseRange i)) :
    ∃ T, bestTemp true L P = .ok T ∧
      (∀ t : ℕ, t ≤ 4 → j < 8 → annotatorEntropy L P T ≤
        annotatorEntropy L P (coarseRange j + (coarseRange (j + 1) - coarseRange j) * (t / 4))) ∧
      ∀ t : ℕ, t < 4 → 0 < j → annotatorEntropy L P T ≤
        annotatorEntropy L P (coarseRange (j - 1) + (coarseRange j - coarseRange (j - 1)) * (t / 4)) := by
  obtain ⟨T, h1, h2, h3⟩ := bestTemp_spec true L P (annotatorEntropy L P)
    (meanEntropy_eq true L P hn hK hv hP (integer_counts L hv))
  have ha : argmin (fun j => annotatorEntropy L P (coarseRange j)) = j := by
    rcases lt_trichotomy (argmin (fun j => annotatorEntropy L P (coarseRange j))) j with h | h | h
    · exact absurd (argmin_le (fun j => annotatorEntropy L P (coarseRange j)) j) (not_le.mpr (hj' _ h))
    · exact h
    · exact absurd (hj _) (not_le.mpr (argmin_lt (fun j => annotatorEntropy L P (coarseRange j)) j h))
  rw [ha] at h3
  refine ⟨T, h1, fun t ht hl => h3 _ ?_, fun t ht hl => h3 _ ?_⟩
  · unfold fineRange
    rw [if_pos (show j.val < 8 from hl)]
    exact List.mem_append_right _ (List.mem_map.mpr ⟨t, List.mem_range.mpr (by omega), by ring⟩)
  · unfold fineRange
    rw [if_pos (show 0 < j.val from hl)]
    exact List.mem_append_left _ (List.mem_map.mpr ⟨t, List.mem_range.mpr (by omega), by ring⟩)

/-- **C83**: refuted. One example, probabilities `(0.9, 0.1)`, one annotator for each class: the best temperature of
the coarse search is the last one, `8`, which the fine search leaves out, so a worse one is returned. -/
theorem C83_not_coarse_optimal : ∃ (L : Annotations 1 2 2) (P : Fin 1 → Fin 2 → ℝ),
    (∀ i m, L i m ≠ none) ∧ (∀ i, IsDistribution (P i)) ∧ P 0 0 = 9 / 10 ∧
      ∃ T, bestTemp true L P = .ok T ∧ annotatorEntropy L P 8 < annotatorEntropy L P T := by
  set L : Annotations 1 2 2 := fun _ m => some m with hL
  have hsome : ∀ i m, L i m ≠ none := fun i m => by simp [hL]
  have hv0 : ∀ k, numVotes L 0 k = 1 := by decide
  have hva : numAnnotators L 0 = 2 := by decide
  have hf : ∀ T, annotatorEntropy L (fun _ => rowOf 9) T =
      -(1 / 2 * Real.log (max (atTemp T (rowOf 9) 0) (1 / 10 ^ 30)) +
        1 / 2 * Real.log (max (atTemp T (rowOf 9) 1) (1 / 10 ^ 30))) / Real.log 2 := by
    intro T
    unfold annotatorEntropy
    simp [hv0, hva, Fin.sum_univ_two]
  have hanti : ∀ T T', 1 / 10 ≤ T → T < T' →
      annotatorEntropy L (fun _ => rowOf 9) T' < annotatorEntropy L (fun _ => rowOf 9) T := by
    intro T T' hT h
    obtain ⟨a1, a2⟩ := pow_range 9 (by norm_num) le_rfl T hT
    obtain ⟨b1, b2⟩ := pow_range 9 (by norm_num) le_rfl T' (by linarith)
    have hlt := pow_anti 9 (by norm_num) T T' hT h
    obtain ⟨e1, e2⟩ := atTemp_rowOf 9 (by norm_num) T
    obtain ⟨e3, e4⟩ := atTemp_rowOf 9 (by norm_num) T'
    rw [hf, hf, e1, e2, e3, e4, max_first _ a1, max_first _ b1, max_second _ a1 a2, max_second _ b1 b2]
    generalize (9 : ℝ) ^ (1 / T) = s at *
    generalize (9 : ℝ) ^ (1 / T') = s' at *
    rw [div_lt_div_iff_of_pos_right (Real.log_pos (by norm_num)), neg_lt_neg_iff, ← mul_add, ← mul_add,
      ← Real.log_mul (by positivity) (by positivity), ← Real.log_mul (by positivity) (by positivity)]
    apply mul_lt_mul_of_pos_left _ (by norm_num)
    apply Real.log_lt_log (by positivity)
    rw [div_mul_div_comm, div_mul_div_comm, div_lt_div_iff₀ (by positivity) (by positivity)]
    nlinarith [mul_pos (sub_pos.mpr hlt) (show (0:ℝ) < s * s' - 1 by nlinarith)]
  obtain ⟨T, h1, h2, -⟩ := bestTemp_spec true L (fun _ => rowOf 9) _
    (meanEntropy_eq true L (fun _ => rowOf 9) (by norm_num) (by norm_num) (fun i => ⟨0, hsome i 0⟩)
      (fun _ => (rowOf_dist 9 (by norm_num)).1) (integer_counts L (fun i => ⟨0, hsome i 0⟩)))
  obtain ⟨h5, h8⟩ := search_of_anti _ hanti T h2
  exact ⟨L, fun _ => rowOf 9, hsome, fun _ => rowOf_dist 9 (by norm_num), by simp [rowOf]; norm_num, T, h1,
    hanti T 8 (by linarith) h8⟩

/-! ### All annotators choose one class -/

/-- Two annotators who both give the label `k` to the only example. -/
def bothLabel (k : Fin 2) : Annotations 1 2 2 := fun _ _ => some k

theorem bothLabel_entropy (k : Fin 2) (p : Fin 2 → ℝ) (T : ℝ) :
    annotatorEntropy (bothLabel k) (fun _ => p) T =
      -Real.log (max (atTemp T p k) (1 / 10 ^ 30)) / Real.log 2 := by
  have h1 : ∀ k, numAnnotators (bothLabel k) 0 = 2 := by decide
  have h2 : ∀ k j, numVotes (bothLabel k) 0 j = if k = j then 2 else 0 := by decide
  unfold annotatorEntropy
  simp only [Finset.univ_unique, Fin.default_eq_zero, Fin.isValue, Finset.sum_singleton, h1, h2, Nat.cast_one,
    div_one, Nat.cast_ofNat]
  congr 2
  fin_cases k <;> simp [Fin.sum_univ_two]

/-- The annotators agree with the prediction `c / (c + 1)`: lower temperatures are better. -/
theorem agree_mono (c : ℝ) (hc : 1 < c) (hc9 : c ≤ 9) (T T' : ℝ) (hT : 1 / 10 ≤ T) (h : T < T') :
    annotatorEntropy (bothLabel 0) (fun _ => rowOf c) T < annotatorEntropy (bothLabel 0) (fun _ => rowOf c) T' := by
  obtain ⟨a1, -⟩ := pow_range c hc hc9 T hT
  obtain ⟨b1, -⟩ := pow_range c hc hc9 T' (by linarith)
  have hlt := pow_anti c hc T T' hT h
  rw [bothLabel_entropy, bothLabel_entropy, (atTemp_rowOf c (by linarith) T).1, (atTemp_rowOf c (by linarith) T').1,
    max_first _ a1, max_first _ b1, div_lt_div_iff_of_pos_right (Real.log_pos (by norm_num)), neg_lt_neg_iff]
  apply Real.log_lt_log (by positivity)
  rw [div_lt_div_iff₀ (by linarith) (by linarith)]
  nlinarith

/-- The hypotheses of `C83_best_temperature_partial` for two annotators who agree with a prediction of `3/4`. -/
example : (∀ i, ∃ m, bothLabel 0 i m ≠ none) ∧ (∀ k, 0 ≤ rowOf 3 k) ∧
    ∃ T0, IsCoarse T0 ∧ T0 ≠ 8 ∧
      annotatorEntropy (bothLabel 0) (fun _ => rowOf 3) T0 ≤ annotatorEntropy (bothLabel 0) (fun _ => rowOf 3) 8 :=
  ⟨fun _ => ⟨0, by simp [bothLabel]⟩, (rowOf_dist 3 (by norm_num)).1, 1 / 10, by simp [IsCoarse], by norm_num,
    (agree_mono 3 (by norm_num) (by norm_num) _ 8 le_rfl (by norm_num)).le⟩

/-- They disagree with it: higher temperatures are better. -/
theorem disagree_anti (c : ℝ) (hc : 1 < c) (hc9 : c ≤ 9) (T T' : ℝ) (hT : 1 / 10 ≤ T) (h : T < T') :
    annotatorEntropy (bothLabel 1) (fun _ => rowOf c) T' < annotatorEntropy (bothLabel 1) (fun _ => rowOf c) T := by
  obtain ⟨a1, a2⟩ := pow_range c hc hc9 T hT
  obtain ⟨b1, b2⟩ := pow_range c hc hc9 T' (by linarith)
  have hlt := pow_anti c hc T T' hT h
  rw [bothLabel_entropy, bothLabel_entropy, (atTemp_rowOf c (by linarith) T).2, (atTemp_rowOf c (by linarith) T').2,
    max_second _ a1 a2, max_second _ b1 b2, div_lt_div_iff_of_pos_right (Real.log_pos (by norm_num)), neg_lt_neg_iff]
  apply Real.log_lt_log (by positivity)
  exact one_div_lt_one_div_of_lt (by linarith) (by linarith)

/-- With float labels (every data frame, every array with a missing label) the votes for class `1` are counted as
votes for class `0`. -/
theorem float_entropy (P : Fin 1 → Fin 2 → ℝ) (T : ℝ) :
    meanEntropy false (bothLabel 1) P T = meanEntropy true (bothLabel 0) P T := by
  have h : softCrossEntropy false (bothLabel 1) (fun i => softmaxLog T (P i)) =
      softCrossEntropy true (bothLabel 0) (fun i => softmaxLog T (P i)) := by
    funext i
    have h1 : valueCounts false (((List.finRange 2).filterMap (fun m => bothLabel 1 i m)).map Fin.val) (some 2) =
        .ok [2, 0] := by revert i; decide
    have h2 : valueCounts true (((List.finRange 2).filterMap (fun m => bothLabel 0 i m)).map Fin.val) (some 2) =
        .ok [2, 0] := by revert i; decide
    have h3 : ((List.finRange 2).filterMap (fun m => bothLabel 1 i m)).length =
        ((List.finRange 2).filterMap (fun m => bothLabel 0 i m)).length := by revert i; decide
    unfold softCrossEntropy
    simp only [h1, h2, h3]
  unfold meanEntropy
  rw [h]

theorem swap_entropy (c : ℝ) (hc : 0 < c) (T : ℝ) :
    annotatorEntropy (bothLabel 0) (fun _ => rowOf (1 / c)) T = annotatorEntropy (bothLabel 1) (fun _ => rowOf c) T ∧
    annotatorEntropy (bothLabel 1) (fun _ => rowOf (1 / c)) T =
      annotatorEntropy (bothLabel 0) (fun _ => rowOf c) T := by
  have h : (1 / c) ^ (1 / T) = 1 / c ^ (1 / T) := by rw [Real.div_rpow zero_le_one hc.le, Real.one_rpow]
  have h0 : 0 < c ^ (1 / T) := Real.rpow_pos_of_pos hc _
  obtain ⟨a, b⟩ := atTemp_rowOf c hc T
  obtain ⟨a', b'⟩ := atTemp_rowOf (1 / c) (by positivity) T
  rw [h] at a' b'
  rw [bothLabel_entropy, bothLabel_entropy, bothLabel_entropy, bothLabel_entropy, a, b, a', b']
  generalize c ^ (1 / T) = s at *
  have e1 : 1 / s / (1 / s + 1) = 1 / (s + 1) := by field_simp; ring
  have e2 : 1 / (1 / s + 1) = s / (s + 1) := by field_simp; ring
  rw [e1, e2]
  exact ⟨rfl, rfl⟩

/-- **C83**: refuted for labels that are not of an integer type. The annotators agree with a confident model that
the example has class `1`, but the search takes their votes for votes for class `0`, and returns a temperature
between `5` and `8`, which is worse than every temperature below. -/
theorem C83_not_float_labels : ∃ (L : Annotations 1 2 2) (P : Fin 1 → Fin 2 → ℝ),
    (∀ i m, L i m = some 1) ∧ (∀ i, IsDistribution (P i)) ∧ P 0 1 = 3 / 4 ∧
      ∃ T, bestTemp false L P = .ok T ∧ 5 ≤ T ∧ annotatorEntropy L P (1 / 10) < annotatorEntropy L P T := by
  have hd : ∀ _ : Fin 1, IsDistribution (rowOf (1 / 3)) := fun _ => rowOf_dist (1 / 3) (by norm_num)
  have hf : ∀ T, 1 / 10 ≤ T → meanEntropy false (bothLabel 1) (fun _ => rowOf (1 / 3)) T =
      .ok (annotatorEntropy (bothLabel 0) (fun _ => rowOf (1 / 3)) T) := by
    intro T hT
    rw [float_entropy]
    exact meanEntropy_eq true (bothLabel 0) _ (by norm_num) (by norm_num) (fun i => ⟨0, by simp [bothLabel]⟩)
      (fun i => (hd i).1) (integer_counts _ (fun i => ⟨0, by simp [bothLabel]⟩)) T hT
  obtain ⟨T, h1, h2, -⟩ := bestTemp_spec false (bothLabel 1) (fun _ => rowOf (1 / 3)) _ hf
  obtain ⟨h5, h8⟩ := search_of_anti _ (fun T T' hT h => by
    rw [(swap_entropy 3 (by norm_num) T).1, (swap_entropy 3 (by norm_num) T').1]
    exact disagree_anti 3 (by norm_num) (by norm_num) T T' hT h) T h2
  refine ⟨bothLabel 1, fun _ => rowOf (1 / 3), fun _ _ => rfl, hd, by simp [rowOf]; norm_num, T, h1, h5, ?_⟩
  rw [(swap_entropy 3 (by norm_num) T).2, (swap_entropy 3 (by norm_num) _).2]
  exact agree_mono 3 (by norm_num) (by norm_num) _ T le_rfl (by linarith)

end Cleanlab.Props
