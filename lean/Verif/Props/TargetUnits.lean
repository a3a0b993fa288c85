import Verif.Props.CleanData
import Verif.Props.Units
import Mathlib.Analysis.Convex.SpecificFunctions.Basic
import Mathlib.Analysis.Complex.ExponentialBounds

/-!
# C161, C162: zero point, sign and unit of a regression target
-/

namespace Cleanlab.Props

open Np Cleanlab.Regression Cleanlab.RegressionFit

variable {n : ℕ} {κ : Type}

/-- A target in other units: `s * y + b`. -/
def affine (s b : ℚ) (y : Fin n → ℚ) : Fin n → ℚ := fun i => s * y i + b

/-- The wrapped model and the folds: the model predicts in the units it was trained with (as every linear or tree-based regression
does), every fold is a fold, and the score is `r2_score`. -/
structure Follows (E : RegressionFit.Env n κ) (s : ℚ) : Prop where
  fit : ∀ b y kw j T i, E.fit (affine s b y) kw j T i = s * E.fit y kw j T i + b
  initial : ∀ q, E.assignInitial q < E.folds
  final : ∀ q, E.assignFinal q < E.folds
  search : ∀ t q, E.assignSearch t q < E.folds
  boot : ∀ t q, E.assignBoot t q < 2
  residual : ∀ q, E.assignResidual q < E.folds
  r2 : E.r2 = rSquared

/-- The sort compares values only: two arrays in the same order are sorted by the same permutation. -/
def OrderBased {α : Type} [LinearOrder α] (A : ArgSort α) : Prop :=
  ∀ {n : ℕ} (v w : Fin n → α), (∀ i j, v i ≤ v j ↔ w i ≤ w j) → A.indices v = A.indices w

theorem orderBased_stableSort (α : Type) [LinearOrder α] : OrderBased (stableSort α) := by
  intro n v w h
  rw [stableSort_indices, stableSort_indices]
  unfold stableOrder
  have : (fun i j => v i ≤ v j) = fun i j => w i ≤ w j := by funext i j; exact propext (h i j)
  congr!

theorem cv_affine (fit fit' : Fit n) (s b : ℚ) (hfit : ∀ j T i, fit' j T i = s * fit j T i + b) (assign : ℕ → ℕ) (folds : ℕ)
    (hassign : ∀ q, assign q < folds) (idx : List (Fin n)) (hidx : idx.Perm (List.finRange n)) (k : ℚ) :
    cvPredictions fit' assign idx k folds = (cvPredictions fit assign idx k folds).map (affine s b) := by
  have hnd : idx.Nodup := hidx.nodup_iff.mpr (List.nodup_finRange n)
  have hf0 : (folds : ℚ) ≠ 0 := by
    have := hassign 0
    have h0 : folds ≠ 0 := by omega
    exact_mod_cast h0
  unfold cvPredictions
  split_ifs with h1
  · rfl
  · dsimp only
    split_ifs with h2
    · rfl
    · simp only [Except.map, Except.ok.injEq]
      funext i
      unfold affine
      dsimp only
      set m := idx.length - ⌈(idx.length : ℚ) * k⌉.toNat
      by_cases hi : i ∈ idx.drop m
      · rw [if_pos hi, if_pos hi]
        have hsum : ∀ l : List ℕ, (l.map (fun j => fit' j (pick (idx.take m) (fun p => assign p ≠ j)) i)).sum =
            s * (l.map (fun j => fit j (pick (idx.take m) (fun p => assign p ≠ j)) i)).sum + l.length * b := by
          intro l
          induction l with
          | nil => simp
          | cons a l ih =>
            rw [List.map_cons, List.sum_cons, ih, List.map_cons, List.sum_cons, hfit, List.length_cons]
            push_cast
            ring
        rw [hsum, List.length_range]
        field_simp
      · rw [if_neg hi, if_neg hi]
        have hmem : i ∈ idx.take m := by
          have := hidx.mem_iff.mpr (List.mem_finRange i)
          rw [← List.take_append_drop m idx, List.mem_append] at this
          exact this.resolve_right hi
        obtain ⟨q, hq, rfl⟩ := List.mem_iff_getElem.mp hmem
        have hnd' : (idx.take m).Nodup := hnd.sublist (List.take_sublist _ _)
        rw [cvLoop_apply fit' assign _ hnd' q hq folds (hassign q), cvLoop_apply fit assign _ hnd' q hq folds (hassign q), hfit]

theorem rSquared_affine (s b : ℚ) (hs : s ≠ 0) (y p : Fin n → ℚ) : rSquared (affine s b y) (affine s b p) = rSquared y p := by
  rcases Nat.eq_zero_or_pos n with rfl | hn
  · unfold rSquared affine
    simp
  have hn0 : (n : ℚ) ≠ 0 := by exact_mod_cast hn.ne'
  have hss : s ^ 2 ≠ 0 := pow_ne_zero 2 hs
  have h1 : ∑ i, (affine s b y i - affine s b p i) ^ 2 = s ^ 2 * ∑ i, (y i - p i) ^ 2 := by
    rw [Finset.mul_sum]
    apply Finset.sum_congr rfl
    intro i _
    unfold affine
    ring
  have hm : (∑ i, affine s b y i) / (n : ℚ) = s * ((∑ i, y i) / n) + b := by
    unfold affine
    rw [Finset.sum_add_distrib, ← Finset.mul_sum, Finset.sum_const, Finset.card_univ, Fintype.card_fin, nsmul_eq_mul]
    field_simp
  have h2 : ∑ i, (affine s b y i - (∑ i, affine s b y i) / (n : ℚ)) ^ 2 = s ^ 2 * ∑ i, (y i - (∑ i, y i) / (n : ℚ)) ^ 2 := by
    rw [hm, Finset.mul_sum]
    apply Finset.sum_congr rfl
    intro i _
    unfold affine
    ring
  unfold rSquared
  dsimp only
  rw [h1, h2, mul_div_mul_left _ _ hss]
  simp only [mul_eq_zero, hss, false_or]

theorem findBestK_congr (folds : ℕ) (cv cv' : ℕ → ℚ → Except String (Fin n → ℚ)) (r2 r2' : (Fin n → ℚ) → ℚ)
    (h : ∀ t k, (cv' t k).map r2' = (cv t k).map r2) (coarse : List ℚ) (size : ℕ) :
    findBestK folds cv' r2' coarse size = findBestK folds cv r2 coarse size := by
  have hc : candidate folds cv' r2' = candidate folds cv r2 := by
    funext t k
    unfold candidate
    rw [h]
  have hm : ∀ t k, (cv' t k).map (fun p => (k, r2' p)) = (cv t k).map (fun p => (k, r2 p)) := by
    intro t k
    have := congrArg (Except.map (fun r => (k, r))) (h t k)
    cases h1 : cv' t k <;> cases h2 : cv t k <;> rw [h1, h2] at this <;> simp [Except.map] at this ⊢ <;> exact this
  unfold findBestK searchSorted
  rw [hc]
  split
  · rfl
  · rw [hm]
  · rfl

theorem abs_affine (s b : ℚ) (y p : Fin n → ℚ) : (fun i => |affine s b p i - affine s b y i|) = fun i => |s| * |p i - y i| := by
  funext i
  unfold affine
  rw [← abs_mul]
  congr 1
  ring

/-- A call with the target in other units. -/
def inUnits (s b : ℚ) (c : FindCall n κ) : FindCall n κ := { c with y := affine s b c.y }

theorem chooseFraction_affine (B : ArgSort ℚ) (E : RegressionFit.Env n κ) (s b : ℚ) (hs : s ≠ 0) (hE : Follows E s) (c : FindCall n κ)
    (hB : |s| = 1 ∨ OrderBased B) : chooseFraction B E (inUnits s b c) = chooseFraction B E c := by
  have hsort : ∀ p : Fin n → ℚ, B.indices (fun i => |affine s b p i - affine s b c.y i|) = B.indices (fun i => |p i - c.y i|) := by
    intro p
    rw [abs_affine]
    rcases hB with h1 | hB
    · simp only [h1, one_mul]
    · apply hB
      intro i j
      exact mul_le_mul_iff_right₀ (abs_pos.mpr hs)
  unfold chooseFraction inUnits
  dsimp only
  cases hv : RegressionFit.validate n with
  | error e => rfl
  | ok u =>
    dsimp only [bind, Except.bind]
    rw [cv_affine _ _ s b (fun j T i => hE.fit b c.y c.kwargs j T i) E.assignInitial E.folds hE.initial _ (List.Perm.refl _)]
    cases hi : cvPredictions (E.fit c.y c.kwargs) E.assignInitial (List.finRange n) 0 E.folds with
    | error e => rfl
    | ok p =>
      dsimp only [Except.map]
      rw [hsort p]
      have hk := findBestK_congr E.folds (RegressionFit.searchCv E c.y (B.indices (fun i => |p i - c.y i|)))
        (RegressionFit.searchCv E (affine s b c.y) (B.indices (fun i => |p i - c.y i|))) (E.r2 c.y) (E.r2 (affine s b c.y)) (by
          intro t k
          unfold RegressionFit.searchCv
          rw [cv_affine _ _ s b (fun j T i => hE.fit b c.y E.noKwargs j T i) (E.assignSearch t) E.folds (hE.search t) _ (B.perm_indices _)]
          cases cvPredictions (E.fit c.y E.noKwargs) (E.assignSearch t) (B.indices (fun i => |p i - c.y i|)) k E.folds with
          | error e => rfl
          | ok q =>
            simp only [Except.map, hE.r2, rSquared_affine s b hs]) c.coarse c.size
      rw [hk, hE.r2, rSquared_affine s b hs]

theorem variance_affine (s b : ℚ) (hs : s * s = 1) (l : List ℚ) : variance (l.map (fun x => s * x + b)) = variance l := by
  rcases l with _ | ⟨a, l⟩
  · rfl
  set l' := a :: l with hl'
  have hn0 : (l'.length : ℚ) ≠ 0 := by rw [hl', List.length_cons]; positivity
  have hsum : ∀ l : List ℚ, (l.map (fun x => s * x + b)).sum = s * l.sum + l.length * b := by
    intro l
    induction l with
    | nil => simp
    | cons a l ih => rw [List.map_cons, List.sum_cons, ih, List.sum_cons, List.length_cons]; push_cast; ring
  unfold variance
  dsimp only
  rw [hsum, List.length_map, List.map_map]
  congr 2
  apply List.map_congr_left
  intro x _
  have : (s * l'.sum + l'.length * b) / (l'.length : ℚ) = s * (l'.sum / l'.length) + b := by field_simp
  simp only [Function.comp_apply, this]
  have h2 : (s * x + b - (s * (l'.sum / (l'.length : ℚ)) + b)) ^ 2 = (s * s) * (x - l'.sum / l'.length) ^ 2 := by ring
  rw [h2, hs, one_mul]

theorem mapM_cv_affine (s b : ℚ) (f f' : ℕ → Except String (Fin n → ℚ)) (h : ∀ t, f' t = (f t).map (affine s b)) (l : List ℕ) :
    l.mapM f' = (l.mapM f).map (fun ps => ps.map (affine s b)) := by
  induction l with
  | nil => rfl
  | cons a l ih =>
    rw [List.mapM_cons, List.mapM_cons, ih, h]
    cases f a with
    | error e => rfl
    | ok p =>
      cases l.mapM f with
      | error e => rfl
      | ok ps => rfl

theorem uncertainty_affine (E : RegressionFit.Env n κ) (s b : ℚ) (hs : s * s = 1) (hE : Follows E s) (y p : Fin n → ℚ) (u : Uncertainty) :
    resolveUncertainty E (affine s b y) (affine s b p) u = resolveUncertainty E y p u := by
  cases u with
  | number u => rfl
  | array u => rfl
  | estimate =>
    unfold resolveUncertainty
    have hep : epistemicUncertainty E (affine s b y) (some (affine s b p)) = epistemicUncertainty E y (some p) := by
      unfold epistemicUncertainty bootPredictions
      cases RegressionFit.validate n with
      | error e => rfl
      | ok u =>
        dsimp only [bind, Except.bind]
        split_ifs
        · rfl
        · rw [mapM_cv_affine s b (fun t => cvPredictions (E.fit y E.noKwargs) (E.assignBoot t) (List.finRange n) 0 2) _
            (fun t => cv_affine _ _ s b (fun j T i => hE.fit b y E.noKwargs j T i) (E.assignBoot t) 2 (hE.boot t) _ (List.Perm.refl _) 0)]
          cases (List.range E.nBoot).mapM (fun t => cvPredictions (E.fit y E.noKwargs) (E.assignBoot t) (List.finRange n) 0 2) with
          | error e => rfl
          | ok ps =>
            simp only [Except.map, pure, Except.pure, Except.ok.injEq]
            funext i
            unfold spread
            congr 2
            rw [← variance_affine s b hs ((ps ++ (some p).toList).map (fun p => p i))]
            congr 1
            simp [affine]
    have hal : aleatoricUncertainty E (fun i => affine s b p i - affine s b y i) = aleatoricUncertainty E (fun i => p i - y i) := by
      have hr : (fun i => affine s b p i - affine s b y i) = affine s 0 (fun i => p i - y i) := by
        funext i
        unfold affine
        ring
      rw [hr]
      unfold aleatoricUncertainty
      cases RegressionFit.validate n with
      | error e => rfl
      | ok u =>
        dsimp only [bind, Except.bind]
        rw [cv_affine _ _ s 0 (fun j T i => hE.fit 0 (fun i => p i - y i) E.noKwargs j T i) E.assignResidual E.folds hE.residual _ (List.Perm.refl _)]
        cases cvPredictions (E.fit (fun i => p i - y i) E.noKwargs) E.assignResidual (List.finRange n) 0 E.folds with
        | error e => rfl
        | ok q =>
          simp only [Except.map, pure, Except.pure, Except.ok.injEq]
          unfold spread
          congr 2
          rw [← variance_affine s 0 hs ((List.finRange n).map q), List.map_map]
          rfl
    rw [hep, hal]

theorem chooseFraction_perm (B : ArgSort ℚ) (E : RegressionFit.Env n κ) (c : FindCall n κ) (k : ℚ) (idx : List (Fin n))
    (hcf : chooseFraction B E c = .ok (k, idx)) : idx.Perm (List.finRange n) := by
  unfold chooseFraction at hcf
  cases hv : RegressionFit.validate n with
  | error e => rw [hv] at hcf; cases hcf
  | ok u =>
    rw [hv] at hcf
    dsimp only [bind, Except.bind] at hcf
    cases hi : cvPredictions (E.fit c.y c.kwargs) E.assignInitial (List.finRange n) 0 E.folds with
    | error e => rw [hi] at hcf; cases hcf
    | ok p =>
      rw [hi] at hcf
      dsimp only at hcf
      cases hb : findBestK E.folds (RegressionFit.searchCv E c.y (B.indices (fun i => |p i - c.y i|))) (E.r2 c.y) c.coarse c.size with
      | error e => rw [hb] at hcf; cases hcf
      | ok kr =>
        rw [hb] at hcf
        have := Except.ok.inj hcf
        rw [← (Prod.mk.inj this).2]
        exact B.perm_indices _

/-- The two tables agree except for the units of the given and predicted labels. -/
structure SameIssues (s b : ℚ) (c : FindCall n κ) (t t' : Table) : Prop where
  flags : t'.isIssue = t.isIssue
  quality : t'.quality = t.quality
  given : t.given = some (List.ofFn c.y) ∧ t'.given = some (List.ofFn (affine s b c.y))
  predicted : c.integer = false → ∃ p : Fin n → ℚ, t.predicted = some (List.ofFn p) ∧ t'.predicted = some (List.ofFn (affine s b p))

/-- **C161.** With a model that predicts in the units it was trained with, adding a constant to the targets, or changing their sign, changes nothing
in `find_label_issues` for regression: the same fraction is removed, the same labels are flagged with the same quality, for every kind of uncertainty, search range and folds; the predicted labels are in the new
units. The same calls fail, with the same exception. -/
theorem C161_zero_point_and_sign (B : ArgSort ℚ) (A : ArgSort ℝ) (E : RegressionFit.Env n κ) (s b : ℚ) (hs : s = 1 ∨ s = -1) (hE : Follows E s)
    (o : Obj) (c : FindCall n κ) :
    ((RegressionFit.find B A E o (inUnits s b c)).1.k = (RegressionFit.find B A E o c).1.k) ∧
      (∀ e, (RegressionFit.find B A E o c).2 = .error e ↔ (RegressionFit.find B A E o (inUnits s b c)).2 = .error e) ∧
      ∀ t, (RegressionFit.find B A E o c).2 = .ok t →
        ∃ t', (RegressionFit.find B A E o (inUnits s b c)).2 = .ok t' ∧ SameIssues s b c t t' := by
  have hs0 : s ≠ 0 := by rcases hs with rfl | rfl <;> norm_num
  have hs1 : |s| = 1 := by rcases hs with rfl | rfl <;> norm_num
  have hss : s * s = 1 := by rcases hs with rfl | rfl <;> norm_num
  have hch := chooseFraction_affine B E s b hs0 hE c (Or.inl hs1)
  unfold RegressionFit.find
  rw [hch]
  cases hcf : chooseFraction B E c with
  | error e =>
    dsimp only
    exact ⟨rfl, fun e' => Iff.rfl, fun t h => by cases h⟩
  | ok ks =>
    obtain ⟨k, idx⟩ := ks
    dsimp only
    have hperm := chooseFraction_perm B E c k idx hcf
    unfold RegressionFit.issueTable inUnits
    dsimp only
    rw [cv_affine _ _ s b (fun j T i => hE.fit b c.y c.kwargs j T i) E.assignFinal E.folds hE.final idx hperm]
    cases hp : cvPredictions (E.fit c.y c.kwargs) E.assignFinal idx k E.folds with
    | error e =>
      dsimp only [Except.map, bind, Except.bind]
      exact ⟨rfl, fun e' => Iff.rfl, fun t h => by cases h⟩
    | ok p =>
      dsimp only [Except.map, bind, Except.bind]
      rw [uncertainty_affine E s b hss hE]
      cases hu : resolveUncertainty E c.y p c.uncertainty with
      | error e =>
        dsimp only
        exact ⟨rfl, fun e' => Iff.rfl, fun t h => by cases h⟩
      | ok u =>
        dsimp only
        have hq : qualityScores A (fun i => ((affine s b p i - affine s b c.y i : ℚ) : ℝ)) u =
            qualityScores A (fun i => ((p i - c.y i : ℚ) : ℝ)) u := by
          have : adjusted (fun i => ((affine s b p i - affine s b c.y i : ℚ) : ℝ)) u = adjusted (fun i => ((p i - c.y i : ℚ) : ℝ)) u := by
            funext i
            unfold adjusted
            rw [abs_div, abs_div, ← Rat.cast_abs, ← Rat.cast_abs]
            have : |affine s b p i - affine s b c.y i| = |s| * |p i - c.y i| := congrFun (abs_affine s b c.y p) i
            rw [this, hs1, one_mul]
          unfold qualityScores
          rw [this]
        rw [hq]
        cases hsc : qualityScores A (fun i => ((p i - c.y i : ℚ) : ℝ)) u with
        | none =>
          dsimp only
          exact ⟨rfl, fun e' => Iff.rfl, fun t h => by cases h⟩
        | some scores =>
          dsimp only [pure, Except.pure]
          refine ⟨?_, fun e' => Iff.intro (fun h => by cases h) (fun h => by cases h), fun t h => ?_⟩
          · cases c.saveSpace <;> rfl
          · obtain rfl := Except.ok.inj h
            refine ⟨_, rfl, rfl, rfl, ⟨rfl, rfl⟩, fun hint => ⟨p, ?_, ?_⟩⟩
            · simp [hint]
            · simp [hint]

/-- With the same uncertainty for all examples, scores are in the order of the residuals. -/
theorem qualityScores_order (A : ArgSort ℝ) (r : Fin n → ℝ) (u : ℝ) (hu : 0 ≤ u) (scores : Fin n → ℝ)
    (h : qualityScores A r (fun _ => u) = some scores) (i j : Fin n) : scores i ≤ scores j ↔ |r j| ≤ |r i| := by
  unfold qualityScores at h
  cases hm : npMedian A ((List.finRange n).map (adjusted r (fun _ => u))) with
  | none => rw [hm] at h; cases h
  | some m =>
    rw [hm] at h
    obtain rfl := Option.some.inj h
    have ht : 0 < tiny := by unfold tiny; positivity
    have hmax : 0 < max m tiny := lt_max_of_lt_right ht
    have hc : 0 < 1 / (u + tiny) := by positivity
    rw [Real.exp_le_exp, div_le_div_iff_of_pos_right hmax, neg_le_neg_iff, adjusted_number r u hu, adjusted_number r u hu,
      mul_le_mul_iff_right₀ hc]

/-- **C161, the unit.** If the uncertainty is given as a number, in whatever unit, the unit of the targets does not change which labels are flagged, nor
the fraction that is removed (with sorts that compare values, as all of numpy's do). -/
theorem C161_unit (B : ArgSort ℚ) (A : ArgSort ℝ) (hB : OrderBased B) (hA : OrderBased A) (E : RegressionFit.Env n κ) (s b : ℚ) (hs : s ≠ 0)
    (hE : Follows E s) (o : Obj) (c : FindCall n κ) (u u' : ℝ) (hu : 0 ≤ u) (hu' : 0 ≤ u') (hcu : c.uncertainty = .number u) :
    ((RegressionFit.find B A E o { inUnits s b c with uncertainty := .number u' }).1.k = (RegressionFit.find B A E o c).1.k) ∧
      ∀ t, (RegressionFit.find B A E o c).2 = .ok t →
        ∃ t', (RegressionFit.find B A E o { inUnits s b c with uncertainty := .number u' }).2 = .ok t' ∧ t'.isIssue = t.isIssue := by
  have hch : chooseFraction B E { inUnits s b c with uncertainty := .number u' } = chooseFraction B E c :=
    chooseFraction_affine B E s b hs hE c (Or.inr hB)
  unfold RegressionFit.find
  rw [hch]
  cases hcf : chooseFraction B E c with
  | error e => exact ⟨rfl, fun t h => by cases h⟩
  | ok ks =>
    obtain ⟨k, idx⟩ := ks
    dsimp only
    have hperm := chooseFraction_perm B E c k idx hcf
    unfold RegressionFit.issueTable inUnits
    dsimp only
    rw [cv_affine _ _ s b (fun j T i => hE.fit b c.y c.kwargs j T i) E.assignFinal E.folds hE.final idx hperm]
    cases hp : cvPredictions (E.fit c.y c.kwargs) E.assignFinal idx k E.folds with
    | error e => exact ⟨rfl, fun t h => by cases h⟩
    | ok p =>
      rw [hcu]
      dsimp only [Except.map, bind, Except.bind, resolveUncertainty]
      cases hsc : qualityScores A (fun i => ((p i - c.y i : ℚ) : ℝ)) (fun _ => u) with
      | none =>
        have hsc' : qualityScores A (fun i => ((affine s b p i - affine s b c.y i : ℚ) : ℝ)) (fun _ => u') = none := by
          unfold qualityScores at hsc ⊢
          rw [Option.map_eq_none_iff] at hsc ⊢
          by_contra hne
          have hlen : (List.finRange n).map (adjusted (fun i => ((p i - c.y i : ℚ) : ℝ)) (fun _ => u)) ≠ [] := by
            intro h0
            have hn : n = 0 := by simpa using congrArg List.length h0
            subst hn
            exact hne (by simp [npMedian, sortOn, ArgSort.indices])
          have := npMedian_isSome A _ hlen
          rw [hsc] at this
          cases this
        rw [hsc']
        exact ⟨rfl, fun t h => by cases h⟩
      | some scores =>
        have hex : ∃ scores', qualityScores A (fun i => ((affine s b p i - affine s b c.y i : ℚ) : ℝ)) (fun _ => u') = some scores' := by
          unfold qualityScores at hsc ⊢
          rw [← Option.isSome_iff_exists, Option.isSome_map]
          apply npMedian_isSome
          intro h0
          have hn : n = 0 := by simpa using congrArg List.length h0
          subst hn
          simp [npMedian, sortOn, ArgSort.indices] at hsc
        obtain ⟨scores', hsc'⟩ := hex
        rw [hsc']
        dsimp only [pure, Except.pure]
        refine ⟨?_, fun t h => ?_⟩
        · cases c.saveSpace <;> rfl
        · obtain rfl := Except.ok.inj h
          refine ⟨_, rfl, ?_⟩
          dsimp only
          have hind : A.indices scores' = A.indices scores := by
            apply hA
            intro i j
            rw [qualityScores_order A _ u' hu' _ hsc', qualityScores_order A _ u hu _ hsc, ← Rat.cast_abs, ← Rat.cast_abs, ← Rat.cast_abs,
              ← Rat.cast_abs, Rat.cast_le, Rat.cast_le]
            have h1 : ∀ i, |affine s b p i - affine s b c.y i| = |s| * |p i - c.y i| := congrFun (abs_affine s b c.y p)
            rw [h1, h1]
            exact mul_le_mul_iff_right₀ (abs_pos.mpr hs)
          have hfl : flag A scores' k = flag A scores k := by
            funext i
            unfold flag
            rw [hind]
          rw [hfl]

/-- A model that predicts the label of the first training example. -/
def firstEnv : RegressionFit.Env 4 Unit where
  fit := fun y _ _ T i => match T with
    | [] => y i
    | j :: _ => y j
  noKwargs := ()
  folds := 2
  nBoot := 5
  aleatoric := true
  assignInitial := fun q => q % 2
  assignFinal := fun q => q % 2
  assignSearch := fun _ q => q % 2
  assignBoot := fun t q => (q + t) % 2
  assignResidual := fun q => q % 2
  r2 := rSquared

theorem firstEnv_follows (s : ℚ) : Follows firstEnv s where
  fit := by
    intro b y kw j T i
    cases T <;> rfl
  initial := fun q => Nat.mod_lt _ (by norm_num [firstEnv])
  final := fun q => Nat.mod_lt _ (by norm_num [firstEnv])
  search := fun t q => Nat.mod_lt _ (by norm_num [firstEnv])
  boot := fun t q => Nat.mod_lt _ (by norm_num)
  residual := fun q => Nat.mod_lt _ (by norm_num [firstEnv])
  r2 := rfl

/-- Temperatures, in degrees Celsius; the call in Kelvin has the same result. -/
def celsius : FindCall 4 Unit := { y := ![20, 21, -5, 22], uncertainty := .number 1, coarse := [1/4], size := 0, kwargs := () }

theorem celsius_find (A : ArgSort ℝ) (o : Obj) : ∃ t, RegressionFit.find (stableSort ℚ) A firstEnv o celsius = ({ table := some t, k := some (1/4) }, .ok t) := by
  have hch : chooseFraction (stableSort ℚ) firstEnv celsius = .ok (1/4, [0, 1, 3, 2]) := ok_of_toOption (by decide +kernel)
  obtain ⟨p, hp⟩ : ∃ p, cvPredictions (firstEnv.fit celsius.y celsius.kwargs) firstEnv.assignFinal [0, 1, 3, 2] (1/4) firstEnv.folds = .ok p :=
    ⟨![21, 20, 41/2, 21], ok_of_toOption (by decide +kernel)⟩
  unfold RegressionFit.find
  rw [hch]
  dsimp only
  unfold RegressionFit.issueTable
  rw [hp]
  dsimp only [bind, Except.bind]
  have hu : resolveUncertainty firstEnv celsius.y p celsius.uncertainty = .ok (fun _ => 1) := rfl
  rw [hu]
  dsimp only
  obtain ⟨med, hmed⟩ := Option.isSome_iff_exists.mp (npMedian_isSome A ((List.finRange 4).map
    (adjusted (fun i : Fin 4 => ((p i - celsius.y i : ℚ) : ℝ)) (fun _ => 1))) (by simp))
  unfold qualityScores
  rw [hmed]
  exact ⟨_, rfl⟩

example (A : ArgSort ℝ) : ∃ t t', (RegressionFit.find (stableSort ℚ) A firstEnv {} celsius).2 = .ok t ∧
    (RegressionFit.find (stableSort ℚ) A firstEnv {} (inUnits 1 (27315/100) celsius)).2 = .ok t' ∧ SameIssues 1 (27315/100) celsius t t' ∧
    (inUnits 1 (27315/100) celsius).y 2 = 26815/100 := by
  obtain ⟨t, ht⟩ := celsius_find A {}
  obtain ⟨-, -, h⟩ := C161_zero_point_and_sign (stableSort ℚ) A firstEnv 1 (27315/100) (Or.inl rfl) (firstEnv_follows 1) {} celsius
  obtain ⟨t', ht', hsame⟩ := h t (by rw [ht])
  exact ⟨t, t', by rw [ht], ht', hsame, by decide +kernel⟩

/-- In degrees Fahrenheit, with another uncertainty, the same labels are flagged. -/
example : ∃ t t', (RegressionFit.find (stableSort ℚ) (stableSort ℝ) firstEnv {} celsius).2 = .ok t ∧
    (RegressionFit.find (stableSort ℚ) (stableSort ℝ) firstEnv {} { inUnits (9/5) 32 celsius with uncertainty := .number (9/5) }).2 = .ok t' ∧
    t'.isIssue = t.isIssue := by
  obtain ⟨t, ht⟩ := celsius_find (stableSort ℝ) {}
  obtain ⟨-, h⟩ := C161_unit (stableSort ℚ) (stableSort ℝ) (orderBased_stableSort ℚ) (orderBased_stableSort ℝ) firstEnv (9/5) 32 (by norm_num)
    (firstEnv_follows _) {} celsius 1 (9/5) (by norm_num) (by norm_num) rfl
  obtain ⟨t', ht', hf⟩ := h t (by rw [ht])
  exact ⟨t, t', by rw [ht], ht', hf⟩

/-! ### C162: the check of Datalab -/

/-- The check with residual scores. -/
noncomputable def residualCheck (A : ArgSort ℝ) (y p : Fin n → ℝ) (threshold : ℝ) : Except String (CheckResult n) :=
  withPredictions A (fun y p => .ok (fun i => Real.exp (-|p i - y i|))) y p threshold

/-- The median of powers, if the unit is made finer. -/
theorem npMedian_rpow (A : ArgSort ℝ) (l : List ℝ) (h0 : ∀ x ∈ l, 0 ≤ x) (c : ℝ) (hc : 1 ≤ c) (m : ℝ) (hm : npMedian A l = some m) :
    ∃ m', npMedian A (l.map (fun x => x ^ c)) = some m' ∧ 0 ≤ m ∧ m ^ c ≤ m' := by
  have hs : sortOn A id (l.map (fun x => x ^ c)) = (sortOn A id l).map (fun x => x ^ c) := by
    have hp : (sortOn A id (l.map (fun x => x ^ c))).Perm ((sortOn A id l).map (fun x => x ^ c)) :=
      (sortOn_perm A id _).trans ((sortOn_perm A id l).map _).symm
    have h1 : (sortOn A id (l.map (fun x => x ^ c))).Pairwise (fun x y => x ≤ y) := sortOn_sorted A id _
    have h2 : ((sortOn A id l).map (fun x => x ^ c)).Pairwise (fun x y => x ≤ y) := by
      rw [List.pairwise_map]
      refine List.Pairwise.imp_of_mem ?_ (sortOn_sorted A id l)
      intro a b ha _ hab
      exact Real.rpow_le_rpow (h0 a ((sortOn_perm A id l).mem_iff.mp ha)) hab (by linarith)
    exact hp.eq_of_pairwise (fun x y _ _ hxy hyx => le_antisymm hxy hyx) h1 h2
  have hmem : ∀ (q : ℕ) (x : ℝ), (sortOn A id l)[q]? = some x → 0 ≤ x := by
    intro q x hx
    exact h0 x ((sortOn_perm A id l).mem_iff.mp (List.mem_of_getElem? hx))
  unfold npMedian at hm ⊢
  dsimp only at hm ⊢
  rw [hs, List.length_map]
  split_ifs at hm ⊢ with hodd
  · rw [List.getElem?_map, hm]
    exact ⟨_, rfl, hmem _ _ hm, le_rfl⟩
  · rw [List.getElem?_map, List.getElem?_map]
    cases ha : (sortOn A id l)[l.length / 2 - 1]? with
    | none => rw [ha] at hm; cases hm
    | some a =>
      cases hb : (sortOn A id l)[l.length / 2]? with
      | none => rw [ha, hb] at hm; cases hm
      | some b =>
        rw [ha, hb] at hm
        have hab : (a + b) / 2 = m := Option.some.inj hm
        have ha0 := hmem _ _ ha
        have hb0 := hmem _ _ hb
        refine ⟨_, rfl, by rw [← hab]; positivity, ?_⟩
        have := (convexOn_rpow hc).2 (Set.mem_Ici.mpr ha0) (Set.mem_Ici.mpr hb0) (by norm_num : (0 : ℝ) ≤ 1/2) (by norm_num : (0 : ℝ) ≤ 1/2) (by norm_num)
        simp only [smul_eq_mul] at this
        rw [← hab, show (a + b) / 2 = 1/2 * a + 1/2 * b by ring]
        refine this.trans (le_of_eq ?_)
        ring

/-- **C162 (partial).** In a finer unit the check reports at least the issues it reports in a coarser one. Missing: it reports more. -/
theorem C162_finer_unit_partial (A : ArgSort ℝ) (y p : Fin n → ℝ) (threshold : ℝ) (ht0 : 0 ≤ threshold) (ht1 : threshold ≤ 1) (c : ℝ) (hc : 1 ≤ c)
    (r : CheckResult n) (h : residualCheck A y p threshold = .ok r) :
    ∃ r', residualCheck A (fun i => c * y i) (fun i => c * p i) threshold = .ok r' ∧ ∀ i, r.flags i = true → r'.flags i = true := by
  unfold residualCheck withPredictions at h ⊢
  dsimp only at h ⊢
  have hpow : ∀ i, Real.exp (-|c * p i - c * y i|) = Real.exp (-|p i - y i|) ^ c := by
    intro i
    rw [← Real.exp_mul, ← mul_sub, abs_mul, abs_of_pos (by linarith : (0 : ℝ) < c)]
    congr 1
    ring
  have hlist : List.ofFn (fun i => Real.exp (-|c * p i - c * y i|)) = (List.ofFn (fun i => Real.exp (-|p i - y i|))).map (fun x => x ^ c) := by
    rw [List.map_ofFn]
    congr 1
    funext i
    exact hpow i
  cases hm : npMedian A (List.ofFn (fun i => Real.exp (-|p i - y i|))) with
  | none => rw [hm] at h; cases h
  | some m =>
    rw [hm] at h
    obtain rfl := Except.ok.inj h
    obtain ⟨m', hm', hm0, hle⟩ := npMedian_rpow A _ (by
      intro x hx
      obtain ⟨i, rfl⟩ := (List.mem_ofFn' _ _).mp hx
      exact (Real.exp_pos _).le) c hc m hm
    rw [hlist, hm']
    refine ⟨_, rfl, fun i hi => ?_⟩
    simp only [decide_eq_true_eq] at hi ⊢
    rw [hpow]
    have hc0 : 0 < c := by linarith
    calc Real.exp (-|p i - y i|) ^ c < (m * threshold) ^ c := Real.rpow_lt_rpow (Real.exp_pos _).le hi hc0
      _ = m ^ c * threshold ^ c := Real.mul_rpow hm0 ht0
      _ ≤ m ^ c * threshold := by
        apply mul_le_mul_of_nonneg_left _ (Real.rpow_nonneg hm0 c)
        exact Real.rpow_le_self_of_le_one ht0 ht1 hc
      _ ≤ m' * threshold := mul_le_mul_of_nonneg_right hle ht0

/-- Three examples, two of which are predicted perfectly. -/
theorem median_two_of_three (A : ArgSort ℝ) (x : ℝ) : npMedian A (List.ofFn ![1, 1, x]) = some 1 := by
  obtain ⟨v, hv⟩ := Option.isSome_iff_exists.mp (npMedian_isSome A (List.ofFn ![1, 1, x]) (by simp))
  obtain ⟨h1, h2⟩ := npMedian_isMedian A _ v hv
  rw [hv]
  congr 1
  simp only [List.ofFn_succ, List.ofFn_zero, List.countP_cons, List.countP_nil, List.length_cons, List.length_nil] at h1 h2
  rcases lt_trichotomy v 1 with h | h | h
  · simp [h] at h2
    split_ifs at h2 <;> omega
  · exact h
  · simp [h] at h1
    split_ifs at h1 <;> omega

theorem residual_three (A : ArgSort ℝ) (c : ℝ) (hc : 0 ≤ c) : ∃ r, residualCheck A (fun i => c * (![0, 0, 0] : Fin 3 → ℝ) i) (fun i => c * (![0, 0, 1] : Fin 3 → ℝ) i) 0.05 = .ok r ∧
    (r.flags 2 = true ↔ Real.exp (-c) < 0.05) := by
  have hs : (fun i => Real.exp (-|c * (![0, 0, 1] : Fin 3 → ℝ) i - c * (![0, 0, 0] : Fin 3 → ℝ) i|)) = ![1, 1, Real.exp (-c)] := by
    funext i
    fin_cases i <;> simp [abs_of_nonneg hc]
  unfold residualCheck withPredictions
  dsimp only
  have hmed : npMedian A (List.ofFn (fun i => Real.exp (-|c * (![0, 0, 1] : Fin 3 → ℝ) i - c * (![0, 0, 0] : Fin 3 → ℝ) i|))) = some 1 := by
    rw [hs, median_two_of_three]
  rw [hmed]
  refine ⟨_, rfl, ?_⟩
  simp [abs_of_nonneg hc]

/-- **C162 (refuted as stated).** An error of one kilometre is no issue for Datalab's check with residual scores, the same error of 1000 metres is. -/
theorem C162_not_unit (A : ArgSort ℝ) : ¬ ∀ (n : ℕ) (y p : Fin n → ℝ) (c : ℝ), 0 < c → ∀ r r', residualCheck A y p 0.05 = .ok r →
    residualCheck A (fun i => c * y i) (fun i => c * p i) 0.05 = .ok r' → r'.flags = r.flags := by
  intro h
  obtain ⟨r, hr, hf⟩ := residual_three A 1 (by norm_num)
  obtain ⟨r', hr', hf'⟩ := residual_three A 1000 (by norm_num)
  have := h 3 (fun i => 1 * (![0, 0, 0] : Fin 3 → ℝ) i) (fun i => 1 * (![0, 0, 1] : Fin 3 → ℝ) i) 1000 (by norm_num) r r' hr (by simpa using hr')
  have h1 : ¬ r.flags 2 = true := by
    rw [hf, not_lt, Real.exp_neg]
    have := Real.exp_one_lt_d9
    have h0 := Real.exp_pos 1
    rw [le_inv_comm₀ (by norm_num) h0]
    norm_num
    linarith
  have h2 : r'.flags 2 = true := by
    rw [hf', Real.exp_neg]
    have := Real.add_one_le_exp (1000 : ℝ)
    rw [inv_lt_comm₀ (Real.exp_pos _) (by norm_num)]
    norm_num
    linarith
  rw [this] at h2
  exact h1 h2

end Cleanlab.Props
