import Verif.Model.Predict
import Mathlib.Algebra.Order.BigOperators.Group.Finset
import Mathlib.Data.List.Basic
import Mathlib.Tactic.Ring
import Mathlib.Tactic.Linarith
import Mathlib.Tactic.NormNum
import Mathlib.Tactic.Positivity
import Mathlib.Tactic.FieldSimp

/-!
# C143: predicting and scoring with a trained model
-/

namespace Cleanlab.Props

open Cleanlab.Predict

variable {V R : Type}

/-! ## Features -/

/-- Two arrays hold the same features of the same examples: as many examples, and the value at a multi-index of an
example is found at one column of the second. -/
def SameExamples (a b : Arr) : Prop :=
  ∃ (n d : ℕ) (rest : List ℕ), a.shape = n :: rest ∧ b.shape = [n, d] ∧
    (∀ i index, (∃ x, a.entry (i :: index) = some x) →
      ∃ j, ravel rest index = some j ∧ j < d ∧ b.entry [i, j] = a.entry (i :: index)) ∧
    (∀ i j, i < n → j < d → ∃ index, ravel rest index = some j ∧ b.entry [i, j] = a.entry (i :: index))

theorem ravel_lt : ∀ (shape index : List ℕ) (p : ℕ), ravel shape index = some p → p < shape.prod
  | [], [], p, h => by simp [ravel] at h; simp [← h]
  | [], _ :: _, p, h => by simp [ravel] at h
  | _ :: _, [], p, h => by simp [ravel] at h
  | n :: shape, i :: index, p, h => by
    unfold ravel at h
    by_cases hi : i < n
    · rw [if_pos hi, Option.map_eq_some_iff] at h
      obtain ⟨q, hq, rfl⟩ := h
      have := ravel_lt shape index q hq
      rw [List.prod_cons]
      calc i * shape.prod + q < i * shape.prod + shape.prod := by omega
        _ = (i + 1) * shape.prod := by ring
        _ ≤ n * shape.prod := Nat.mul_le_mul_right _ hi
    · rw [if_neg hi] at h
      cases h

theorem ravel_surj : ∀ (shape : List ℕ) (p : ℕ), p < shape.prod → ∃ index, ravel shape index = some p
  | [], p, h => ⟨[], by simp at h; simp [ravel, h]⟩
  | n :: shape, p, h => by
    rw [List.prod_cons] at h
    have hpos : 0 < shape.prod := by
      rcases Nat.eq_zero_or_pos shape.prod with h0 | h0
      · rw [h0] at h; simp at h
      · exact h0
    obtain ⟨index, hi⟩ := ravel_surj shape (p % shape.prod) (Nat.mod_lt _ hpos)
    refine ⟨p / shape.prod :: index, ?_⟩
    unfold ravel
    rw [if_pos (by rw [Nat.div_lt_iff_lt_mul hpos]; exact h), hi, Option.map_some, Nat.div_add_mod']

/-- The default model sees one row per example with every value of the example in one column, in a fixed order, for an array
of any number of dimensions. -/
theorem C143_flattened (a : Arr) (n d e : ℕ) (rest : List ℕ) (h : a.shape = n :: d :: e :: rest) (hn : n ≠ 0) :
    ∃ b, forceTwoDimensions (.array a) = .ok (.array b) ∧ SameExamples a b := by
  obtain ⟨shape, data, size⟩ := a
  dsimp only at h
  subst h
  refine ⟨⟨[n, (d :: e :: rest).prod], data, by rw [size]; simp⟩, ?_, n, _, d :: e :: rest, rfl, rfl, ?_, ?_⟩
  · simp only [forceTwoDimensions, reshapeRows, if_neg hn, Except.map]
  · rintro i index ⟨x, hx⟩
    unfold Arr.entry ravel at hx
    by_cases hi : i < n
    · dsimp only at hx
      rw [if_pos hi] at hx
      cases hr : ravel (d :: e :: rest) index with
      | none => rw [hr] at hx; cases hx
      | some j =>
        have hj := ravel_lt _ _ _ hr
        refine ⟨j, rfl, hj, ?_⟩
        unfold Arr.entry
        dsimp only
        rw [ravel, if_pos hi, ravel, if_pos hj, ravel, ravel, if_pos hi, hr]
        simp
    · dsimp only at hx
      rw [if_neg hi] at hx
      cases hx
  · intro i j hi hj
    obtain ⟨index, hr⟩ := ravel_surj _ j hj
    refine ⟨index, hr, ?_⟩
    unfold Arr.entry
    dsimp only
    rw [ravel, if_pos hi, ravel, if_pos hj, ravel, ravel, if_pos hi, hr]
    simp

/-- Features with at most two dimensions are passed on as they are. -/
theorem C143_unchanged (a : Arr) (h : a.shape.length ≤ 2) : forceTwoDimensions (.array a) = .ok (.array a) := by
  obtain ⟨shape, data, size⟩ := a
  dsimp only at h
  match shape, h with
  | [], _ => rfl
  | [_], _ => rfl
  | [_, _], _ => rfl
  | _ :: _ :: _ :: _, h => simp at h

/-- Giving the default model the features in any shape or already flattened makes no difference. -/
theorem C143_same_prediction (method : Args V → Except String R) (X X' : Features) (rest : List (Features ⊕ V))
    (named : List (String × (Features ⊕ V))) (h : forceTwoDimensions X = .ok X') :
    Predict.predict true method ⟨.inl X :: rest, named⟩ = Predict.predict true method ⟨.inl X' :: rest, named⟩ := by
  have h' : forceTwoDimensions X' = .ok X' := by
    cases X with
    | list r => cases h
    | frame r c f => cases h; rfl
    | array a =>
      obtain ⟨shape, data, size⟩ := a
      match shape, size, h with
      | [], _, h => cases h; rfl
      | [_], _, h => cases h; rfl
      | [_, _], _, h => cases h; rfl
      | n :: d :: e :: rest, size, h =>
        simp only [forceTwoDimensions, reshapeRows] at h
        by_cases hn : n = 0
        · rw [if_pos hn] at h; cases h
        · rw [if_neg hn] at h; cases h; rfl
  unfold Predict.predict
  simp [forceArg, h, h', Except.map]

/-! ## Predictions -/

/-- A model given to the constructor receives exactly the arguments of the caller. -/
theorem C143_given_model (method : Args V → Except String R) (args : Args V) :
    Predict.predict false method args = method args := rfl

/-- The default model gives the same answer for `predict(X)` and `predict(X=X)`: its own for the flattened features, with the
other arguments as they are. -/
theorem C143_default_model_partial (method : Args V → Except String R) (X X' : Features)
    (h : forceTwoDimensions X = .ok X') (before after : List (String × (Features ⊕ V)))
    (hb : "X" ∉ before.map Prod.fst) (ha : "X" ∉ after.map Prod.fst) :
    Predict.predict true method ⟨[.inl X], before ++ after⟩ = method ⟨[.inl X'], before ++ after⟩ ∧
    Predict.predict true method ⟨[], before ++ ("X", .inl X) :: after⟩ = method ⟨[.inl X'], before ++ after⟩ := by
  constructor
  · unfold Predict.predict
    simp [forceArg, h, Except.map]
  · unfold Predict.predict
    have hl : (before ++ ("X", Sum.inl X) :: after).lookup "X" = some (.inl X) := by
      rw [List.lookup_append, List.lookup_eq_none_iff.mpr]
      · simp [List.lookup]
      · intro p hp
        have : p.1 ≠ "X" := fun he => hb (he ▸ List.mem_map_of_mem hp)
        simpa using this.symm
    have hf : (before ++ ("X", Sum.inl X) :: after).filter (fun e => e.1 ≠ "X") = before ++ after := by
      rw [List.filter_append, List.filter_cons_of_neg (by simp), List.filter_eq_self.mpr, List.filter_eq_self.mpr]
      · intro p hp
        have : p.1 ≠ "X" := fun he => ha (he ▸ List.mem_map_of_mem hp)
        simpa using this
      · intro p hp
        have : p.1 ≠ "X" := fun he => hb (he ▸ List.mem_map_of_mem hp)
        simpa using this
    rw [if_pos rfl]
    dsimp only
    rw [hl]
    dsimp only [forceArg]
    rw [h]
    dsimp only [Except.map]
    rw [hf]

/-- The default model refuses a list of examples, although scikit-learn's model accepts it. -/
theorem C143_not_list (method : Args V → Except String R) (rows : List (List ℚ)) (rest : List (Features ⊕ V))
    (named : List (String × (Features ⊕ V))) :
    ∃ e, Predict.predict true method ⟨.inl (.list rows) :: rest, named⟩ = .error e := ⟨_, rfl⟩

/-! ## Scores -/

/-- The value of the score where the wrapped model has a method with weights, or none is given: that of the method, or the
score of scikit-learn for the predictions of the model. -/
theorem C143_score_partial {n : ℕ} {Y : Type} [DecidableEq Y] (method : ScoreMethod n Y)
    (predictions : Features → Except String (Fin n → Y)) (X : Features) (y : Fin n → Y) (w : Option (Fin n → ℚ)) :
    (∀ f, method = .weighted f → Predict.score false method predictions X y w = f X y w) ∧
    (∀ f, method = .unweighted f → w = none → Predict.score false method predictions X y w = f X y) ∧
    (∀ p, method = .absent → predictions X = .ok p → Predict.score false method predictions X y w = accuracyScore y p w) := by
  refine ⟨?_, ?_, ?_⟩
  · rintro f rfl; rfl
  · rintro f rfl rfl; rfl
  · rintro p rfl hp
    show scoreWith .absent predictions accuracyScore X y w = _
    unfold scoreWith
    rw [hp]

/-- Weights are silently ignored if the method of the model has no parameter of that name: the score is that without
weights. -/
theorem C143_not_weights : ∃ (f : Features → (Fin 2 → Bool) → Except String ℚ) (y : Fin 2 → Bool) (w : Fin 2 → ℚ)
    (predictions : Features → Except String (Fin 2 → Bool)) (X : Features),
    predictions X = .ok (fun _ => true) ∧ f X y = accuracyScore y (fun _ => true) none ∧
    Predict.score false (.unweighted f) predictions X y (some w) = .ok (1 / 2) ∧
    accuracyScore y (fun _ => true) (some w) = .ok 0 := by
  refine ⟨fun _ y => accuracyScore y (fun _ => true) none, ![true, false], ![0, 1], fun _ => .ok (fun _ => true),
    .list [], rfl, rfl, ?_, ?_⟩
  · show accuracyScore ![true, false] (fun _ => true) none = _
    unfold accuracyScore
    norm_num [Fin.sum_univ_two]
    decide
  · unfold accuracyScore
    norm_num [Fin.sum_univ_two]

/-- The fallback for classification is the weighted share of right predictions. It lies between 0 and 1, and is 1 exactly if
every example with a positive weight is right; without weights every example counts alike. -/
theorem C143_accuracy {n : ℕ} {Y : Type} [DecidableEq Y] (y p : Fin n → Y) (w : Fin n → ℚ) (hw : ∀ i, 0 ≤ w i)
    (hpos : ∃ i, 0 < w i) :
    ∃ s, accuracyScore y p (some w) = .ok s ∧
      s * (∑ i, w i) = ∑ i ∈ Finset.univ.filter (fun i => p i = y i), w i ∧
      0 ≤ s ∧ s ≤ 1 ∧ (s = 1 ↔ ∀ i, 0 < w i → p i = y i) := by
  have hsum : 0 < ∑ i, w i := by
    obtain ⟨i, hi⟩ := hpos
    exact lt_of_lt_of_le hi (Finset.single_le_sum (fun j _ => hw j) (Finset.mem_univ i))
  have heq : (∑ i, w i * (if y i = p i then 1 else 0)) = ∑ i ∈ Finset.univ.filter (fun i => p i = y i), w i := by
    rw [Finset.sum_filter]
    refine Finset.sum_congr rfl fun i _ => ?_
    by_cases h : p i = y i
    · rw [if_pos h, if_pos h.symm, mul_one]
    · rw [if_neg h, if_neg (fun h' => h h'.symm), mul_zero]
  refine ⟨(∑ i ∈ Finset.univ.filter (fun i => p i = y i), w i) / ∑ i, w i, ?_, ?_, ?_, ?_, ?_⟩
  · unfold accuracyScore
    dsimp only
    rw [if_neg hsum.ne', heq]
  · rw [div_mul_cancel₀ _ hsum.ne']
  · exact div_nonneg (Finset.sum_nonneg fun i _ => hw i) hsum.le
  · rw [div_le_one hsum]
    exact Finset.sum_le_sum_of_subset_of_nonneg (Finset.filter_subset _ _) (fun i _ _ => hw i)
  · rw [div_eq_one_iff_eq hsum.ne']
    have hsplit := Finset.sum_filter_add_sum_filter_not Finset.univ (fun i => p i = y i) w
    constructor
    · intro h i hi
      by_contra hne
      have h0 : ∑ i ∈ Finset.univ.filter (fun i => ¬ p i = y i), w i = 0 := by linarith
      have := (Finset.sum_eq_zero_iff_of_nonneg (fun j _ => hw j)).mp h0 i (by simp [hne])
      linarith
    · intro h
      have h0 : ∑ i ∈ Finset.univ.filter (fun i => ¬ p i = y i), w i = 0 := by
        refine Finset.sum_eq_zero fun i hi => ?_
        rw [Finset.mem_filter] at hi
        by_contra hne
        exact hi.2 (h i (lt_of_le_of_ne (hw i) (Ne.symm hne)))
      linarith

/-- Without weights the fallback is the one with equal weights. -/
theorem C143_accuracy_unweighted {n : ℕ} {Y : Type} [DecidableEq Y] (y p : Fin n → Y) (hn : 0 < n) (c : ℚ) (hc : 0 < c) :
    accuracyScore y p none = accuracyScore y p (some (fun _ => c)) := by
  unfold accuracyScore
  dsimp only
  have hn' : (n : ℚ) ≠ 0 := by exact_mod_cast hn.ne'
  rw [Finset.sum_const, Finset.card_univ, Fintype.card_fin, nsmul_eq_mul, if_neg (mul_ne_zero hn' hc.ne'),
    ← Finset.mul_sum, mul_comm (n : ℚ) c, mul_div_mul_left _ _ hc.ne']

/-- The fallback for regression is at most 1. For targets that are not all equal it is 1 exactly if every prediction of an
example with a positive weight is exact, and 0 for the prediction of the mean. -/
theorem C143_r2 {n : ℕ} (y p : Fin n → ℚ) (w : Fin n → ℚ) (hw : ∀ i, 0 ≤ w i) (hpos : ∃ i, 0 < w i) :
    ∃ s, r2Score y p (some w) = .ok s ∧ s ≤ 1 ∧
      ((∃ i j, 0 < w i ∧ 0 < w j ∧ y i ≠ y j) → (s = 1 ↔ ∀ i, 0 < w i → p i = y i)) ∧
      ((∀ i, p i * ∑ j, w j = ∑ j, w j * y j) → (∃ i j, 0 < w i ∧ 0 < w j ∧ y i ≠ y j) → s = 0) := by
  have hsum : 0 < ∑ i, w i := by
    obtain ⟨i, hi⟩ := hpos
    exact lt_of_lt_of_le hi (Finset.single_le_sum (fun j _ => hw j) (Finset.mem_univ i))
  obtain ⟨m, hm⟩ : ∃ m, m = (∑ i, w i * y i) / ∑ i, w i := ⟨_, rfl⟩
  have hres : 0 ≤ ∑ i, w i * (y i - p i) ^ 2 := Finset.sum_nonneg fun i _ => mul_nonneg (hw i) (sq_nonneg _)
  have hspr : 0 ≤ ∑ i, w i * (y i - m) ^ 2 := Finset.sum_nonneg fun i _ => mul_nonneg (hw i) (sq_nonneg _)
  have hspread : (∃ i j, 0 < w i ∧ 0 < w j ∧ y i ≠ y j) → ∑ i, w i * (y i - m) ^ 2 ≠ 0 := by
    rintro ⟨i, j, hi, hj, hne⟩ h0
    have hz := (Finset.sum_eq_zero_iff_of_nonneg
      (fun k _ => mul_nonneg (hw k) (sq_nonneg (y k - m)))).mp h0
    have h1 : y i - m = 0 := by
      rcases mul_eq_zero.mp (hz i (Finset.mem_univ i)) with h | h
      · linarith
      · exact pow_eq_zero_iff (by norm_num) |>.mp h
    have h2 : y j - m = 0 := by
      rcases mul_eq_zero.mp (hz j (Finset.mem_univ j)) with h | h
      · linarith
      · exact pow_eq_zero_iff (by norm_num) |>.mp h
    exact hne (by linarith)
  have hexact : ∑ i, w i * (y i - p i) ^ 2 = 0 ↔ ∀ i, 0 < w i → p i = y i := by
    rw [Finset.sum_eq_zero_iff_of_nonneg (fun k _ => mul_nonneg (hw k) (sq_nonneg (y k - p k)))]
    constructor
    · intro h i hi
      rcases mul_eq_zero.mp (h i (Finset.mem_univ i)) with h | h
      · linarith
      · have := (pow_eq_zero_iff (by norm_num)).mp h
        linarith
    · intro h i _
      rcases (hw i).eq_or_lt with h0 | h0
      · rw [← h0, zero_mul]
      · rw [h i h0, sub_self]
        ring
  have hval : r2Score y p (some w) =
      if ∑ i, w i * (y i - m) ^ 2 ≠ 0 then
        .ok (1 - (∑ i, w i * (y i - p i) ^ 2) / ∑ i, w i * (y i - m) ^ 2)
      else if ∑ i, w i * (y i - p i) ^ 2 ≠ 0 then .ok 0 else .ok 1 := by
    unfold r2Score
    simp only [Option.getD_some]
    rw [if_neg hsum.ne', ← hm]
  by_cases hs : ∑ i, w i * (y i - m) ^ 2 ≠ 0
  · rw [if_pos hs] at hval
    have hpos' : 0 < ∑ i, w i * (y i - m) ^ 2 := lt_of_le_of_ne hspr (Ne.symm hs)
    refine ⟨_, hval, ?_, fun _ => ?_, fun hp _ => ?_⟩
    · have := div_nonneg hres hspr
      linarith
    · rw [← hexact, sub_eq_self, div_eq_zero_iff]
      exact ⟨fun h => h.resolve_right hs, Or.inl⟩
    · have hpm : ∀ i, p i = m := fun i => by
        rw [hm, eq_div_iff hsum.ne']
        exact hp i
      have : ∑ i, w i * (y i - p i) ^ 2 = ∑ i, w i * (y i - m) ^ 2 := by
        refine Finset.sum_congr rfl fun i _ => ?_
        rw [hpm i]
      rw [this, div_self hs, sub_self]
  · have h0 := fun h => hs (hspread h)
    rw [if_neg hs] at hval
    by_cases hr : ∑ i, w i * (y i - p i) ^ 2 ≠ 0
    · rw [if_pos hr] at hval
      exact ⟨0, hval, by norm_num, fun h => absurd h h0, fun _ h => absurd h h0⟩
    · rw [if_neg hr] at hval
      exact ⟨1, hval, le_refl _, fun h => absurd h h0, fun _ h => absurd h h0⟩

/-- Images of two by two pixels, as they are passed to the default model. -/
example : forceTwoDimensions (.array ⟨[1, 2, 2], [1, 2, 3, 4], rfl⟩) = .ok (.array ⟨[1, 4], [1, 2, 3, 4], rfl⟩) := rfl

/-- Of three predictions the one with weight 2 is right. -/
example : accuracyScore ![0, 1, 1] ![0, 0, 0] (some ![2, 1, 1]) = .ok (1 / 2 : ℚ) := by
  unfold accuracyScore
  dsimp only
  rw [if_neg (by decide +kernel)]
  exact congrArg _ (by decide +kernel)

end Cleanlab.Props
