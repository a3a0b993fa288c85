import Verif.Props.CloserDuplicates
import Verif.Props.TargetUnits

/-!
# C226: a better prediction of a target
-/

namespace Cleanlab.Props

open Np Cleanlab.Regression

variable {n : ℕ}

theorem forall₂_ofFn {α : Type} {R : α → α → Prop} {f g : Fin n → α} (h : ∀ i, R (f i) (g i)) :
    List.Forall₂ R (List.ofFn f) (List.ofFn g) := by
  rw [List.forall₂_iff_get]
  refine ⟨by simp, fun i h1 h2 => ?_⟩
  simpa using h ⟨i, by simpa using h1⟩

/-- Larger values, none of which grows by more than `δ`, have a median that grows by at most `δ`. -/
theorem median_near (A : ArgSort ℝ) (l l' : List ℝ) (δ : ℝ) (h : List.Forall₂ (fun x y => x ≤ y + δ) l' l) (m m' : ℝ)
    (hm : npMedian A l = some m) (hm' : npMedian A l' = some m') : m' ≤ m + δ := by
  have hs : sortOn A id (l.map (fun x => x + δ)) = (sortOn A id l).map (fun x => x + δ) := by
    have hp : (sortOn A id (l.map (fun x => x + δ))).Perm ((sortOn A id l).map (fun x => x + δ)) :=
      (sortOn_perm A id _).trans ((sortOn_perm A id l).map _).symm
    have h1 : (sortOn A id (l.map (fun x => x + δ))).Pairwise (fun x y => x ≤ y) := sortOn_sorted A id _
    have h2 : ((sortOn A id l).map (fun x => x + δ)).Pairwise (fun x y => x ≤ y) := by
      rw [List.pairwise_map]
      refine List.Pairwise.imp ?_ (sortOn_sorted A id l)
      intro a b hab
      have hab : a ≤ b := hab
      linarith
    exact hp.eq_of_pairwise (fun x y _ _ hxy hyx => le_antisymm hxy hyx) h1 h2
  obtain ⟨m'', hm''⟩ := Option.isSome_iff_exists.mp (npMedian_isSome A (l.map (fun x => x + δ)) (by
    intro h0
    rw [List.map_eq_nil_iff.mp h0] at hm
    obtain ⟨lo, hi, hlo, -⟩ := npMedian_eq A [] m hm
    rw [length_sortOn] at hlo
    simp at hlo))
  have h1 : m' ≤ m'' := median_mono A _ _ (by
    rw [List.forall₂_map_right_iff]
    exact h) m'' m' hm'' hm'
  obtain ⟨lo, hi, hlo, hhi, e1, e2, e3⟩ := npMedian_eq A l m hm
  obtain ⟨lo', hi', hlo', hhi', e1', e2', e3'⟩ := npMedian_eq A _ m'' hm''
  have i1 : lo' = lo := by rw [e1', e1, List.length_map]
  have i2 : hi' = hi := by rw [e2', e2, List.length_map]
  subst i1 i2
  have k1 : (sortOn A id (l.map (fun x => x + δ)))[lo'] = (sortOn A id l)[lo'] + δ := by
    simp only [hs, List.getElem_map]
  have k2 : (sortOn A id (l.map (fun x => x + δ)))[hi'] = (sortOn A id l)[hi'] + δ := by
    simp only [hs, List.getElem_map]
  rw [k1, k2] at e3'
  rw [e3]
  rw [e3'] at h1
  linarith

/-- **C226.** If the prediction for one example comes closer to its target, the example does not become an issue, its score does not
fall, and every other example that was an issue is still one. -/
theorem C226_closer (A : ArgSort ℝ) (y p p' : Fin n → ℝ) (threshold : ℝ) (ht0 : 0 ≤ threshold) (ht1 : threshold ≤ 1) (i : Fin n)
    (hi : |p' i - y i| ≤ |p i - y i|) (hsame : ∀ j, j ≠ i → p' j = p j) (r : CheckResult n)
    (h : residualCheck A y p threshold = .ok r) :
    ∃ r', residualCheck A y p' threshold = .ok r' ∧ (r.flags i = false → r'.flags i = false) ∧ r.scores i ≤ r'.scores i ∧
      ∀ j, j ≠ i → r'.scores j = r.scores j ∧ (r.flags j = true → r'.flags j = true) := by
  unfold residualCheck withPredictions at h ⊢
  dsimp only at h ⊢
  have hle : ∀ j, Real.exp (-|p j - y j|) ≤ Real.exp (-|p' j - y j|) := fun j => by
    by_cases hj : j = i
    · rw [hj]
      exact Real.exp_le_exp.mpr (by linarith)
    · rw [hsame j hj]
  cases hm : npMedian A (List.ofFn (fun i => Real.exp (-|p i - y i|))) with
  | none => rw [hm] at h; cases h
  | some m =>
    rw [hm] at h
    obtain rfl := Except.ok.inj h
    have hne : List.ofFn (fun i => Real.exp (-|p' i - y i|)) ≠ [] := fun h0 => by
      have := congrArg List.length h0
      rw [List.length_ofFn, List.length_nil] at this
      exact (Fin.pos i).ne' this
    obtain ⟨m', hm'⟩ := Option.isSome_iff_exists.mp (npMedian_isSome A _ hne)
    rw [hm']
    have hmm : m ≤ m' := median_mono A _ _ (forall₂_ofFn hle) m' m hm' hm
    have hδ : m' ≤ m + (Real.exp (-|p' i - y i|) - Real.exp (-|p i - y i|)) :=
      median_near A _ _ _ (forall₂_ofFn (fun j => by
        by_cases hj : j = i
        · rw [hj]; linarith
        · rw [hsame j hj]
          have := hle i
          linarith)) m m' hm hm'
    refine ⟨_, rfl, fun hf => ?_, hle i, fun j hj => ⟨?_, fun hf => ?_⟩⟩
    · simp only [decide_eq_false_iff_not, not_lt] at hf ⊢
      have := hle i
      nlinarith
    · dsimp only
      rw [hsame j hj]
    · simp only [decide_eq_true_eq] at hf ⊢
      rw [hsame j hj]
      exact lt_of_lt_of_le hf (mul_le_mul_of_nonneg_right hmm ht0)

/-- Three examples, two of which are predicted perfectly: the third is an issue with a prediction that is 4 too high, and still is
after the second prediction has become the best possible. -/
example (A : ArgSort ℝ) : ∃ r', residualCheck A ![0, 0, 0] ![0, 0, 4] 0.05 = .ok r' ∧ r'.scores 1 = 1 ∧
    ∀ r, residualCheck A ![0, 0, 0] ![0, 1, 4] 0.05 = .ok r → r.flags 1 = false → r'.flags 1 = false := by
  have hne : List.ofFn (fun i : Fin 3 => Real.exp (-|(![0, 1, 4] : Fin 3 → ℝ) i - (![0, 0, 0] : Fin 3 → ℝ) i|)) ≠ [] := by simp
  obtain ⟨m, hm⟩ := Option.isSome_iff_exists.mp (npMedian_isSome A _ hne)
  obtain ⟨r, hr⟩ : ∃ r, residualCheck A ![0, 0, 0] ![0, 1, 4] 0.05 = .ok r := by
    unfold residualCheck withPredictions
    dsimp only
    rw [hm]
    exact ⟨_, rfl⟩
  obtain ⟨r', h1, h2, -, -⟩ := C226_closer A ![0, 0, 0] ![0, 1, 4] ![0, 0, 4] 0.05 (by norm_num) (by norm_num) 1 (by simp)
    (fun j hj => by fin_cases j <;> simp_all) r hr
  refine ⟨r', h1, ?_, fun q hq => ?_⟩
  · unfold residualCheck withPredictions at h1
    dsimp only at h1
    split at h1
    · cases h1
    · rw [← Except.ok.inj h1]
      simp
  · rw [hr] at hq
    rw [← Except.ok.inj hq]
    exact h2

end Cleanlab.Props
