import Verif.Model.Validation
import Verif.Props.ValueCounts
import Mathlib.Tactic.FinCases
import Mathlib.Data.Finset.Max
import Mathlib.Tactic.NormNum

/-!
# C96: input validation
-/

namespace Cleanlab.Props

open Cleanlab.Util Cleanlab.Validation

/-- The labels are the class indices `z`. -/
def AreClasses (y : List Raw) (z : List ℕ) : Prop := y = z.map (fun a : ℕ => Raw.num a)

theorem mapM_toInt_iff : ∀ (y : List Raw) (z : List ℤ),
    y.mapM Raw.toInt? = some z ↔ y = z.map (fun a : ℤ => Raw.num a)
  | [], z => by
    simp only [List.mapM_nil]
    constructor
    · intro h; cases h; rfl
    · intro h
      cases z with
      | nil => rfl
      | cons a z => simp at h
  | r :: y, z => by
    have ih := mapM_toInt_iff y
    rw [List.mapM_cons]
    constructor
    · intro h
      cases hr : r.toInt? with
      | none => rw [hr] at h; simp at h
      | some a =>
        rw [hr] at h
        cases hy : y.mapM Raw.toInt? with
        | none => rw [hy] at h; simp at h
        | some zs =>
          rw [hy] at h
          simp only [Option.pure_def, Option.bind_eq_bind, Option.bind_some, Option.some.injEq] at h
          subst h
          rw [List.map_cons, ← (ih zs).mp hy]
          congr 1
          cases r with
          | nan => simp [Raw.toInt?] at hr
          | text s => simp [Raw.toInt?] at hr
          | num q =>
            simp only [Raw.toInt?] at hr
            split at hr
            · rename_i hd
              simp only [Option.some.injEq] at hr
              rw [← hr]
              congr 1
              exact (Rat.den_eq_one_iff q).mp hd |>.symm
            · cases hr
    · intro h
      cases z with
      | nil => simp at h
      | cons a z =>
        simp only [List.map_cons, List.cons.injEq] at h
        obtain ⟨rfl, h⟩ := h
        rw [(ih z).mpr h]
        simp [Raw.toInt?]

/-- **C96.** The label check accepts exactly the non-empty lists of class indices `0, 1, ...` with at least two classes
(unless one is allowed) and without gaps (unless missing classes are allowed), and leaves them unchanged. -/
theorem C96_labels (allowMissing allowOne : Bool) (y : List Raw) (z : List ℕ) :
    validClassLabels allowMissing allowOne y = .ok z ↔
      AreClasses y z ∧ z ≠ [] ∧ (allowOne = true ∨ ∃ a ∈ z, ∃ b ∈ z, a ≠ b) ∧
        (allowMissing = true ∨ ∀ b ∈ z, ∀ a ≤ b, a ∈ z) := by
  have huniq : ∀ z : List ℕ, z ≠ [] → ((npUnique z).length < 2 ↔ ¬∃ a ∈ z, ∃ b ∈ z, a ≠ b) := by
    intro z hz
    constructor
    · rintro hl ⟨a, ha, b, hb, hab⟩
      have h2 : ([a, b] : List ℕ).length ≤ (npUnique z).length := by
        refine (List.Nodup.subperm (by simp [hab]) ?_).length_le
        intro x hx
        rw [mem_npUnique]
        rcases List.mem_cons.mp hx with rfl | hx
        · exact ha
        · rw [List.mem_singleton.mp hx]; exact hb
      simp at h2; omega
    · intro h
      by_contra hl
      push Not at hl
      match hu : npUnique z, hl with
      | a :: b :: r, _ =>
        have hn := nodup_npUnique z
        rw [hu] at hn
        refine h ⟨a, (mem_npUnique z a).mp (by rw [hu]; simp), b, (mem_npUnique z b).mp (by rw [hu]; simp), ?_⟩
        rintro rfl
        simp at hn
  have hrange : ∀ z : List ℕ, (npUnique z = List.range (npUnique z).length ↔ ∀ b ∈ z, ∀ a ≤ b, a ∈ z) := by
    intro z
    constructor
    · intro h b hb a hab
      rw [← mem_npUnique, h, List.mem_range]
      rw [← mem_npUnique, h, List.mem_range] at hb
      omega
    · intro h
      have key : ∃ u, ∀ a, a ∈ z ↔ a < u := by
        by_cases hz : z = []
        · exact ⟨0, by simp [hz]⟩
        · obtain ⟨m, hm, hmax⟩ := Finset.exists_max_image z.toFinset id (List.toFinset_nonempty_iff z |>.mpr hz)
          exact ⟨m + 1, fun a => ⟨fun ha => Nat.lt_succ_of_le (hmax a (List.mem_toFinset.mpr ha)),
            fun ha => h m (List.mem_toFinset.mp hm) a (by omega)⟩⟩
      obtain ⟨u, hu⟩ := key
      rw [npUnique_eq_range hu, List.length_range]
  unfold validClassLabels
  constructor
  · intro h
    split at h
    · cases h
    · rename_i hno
      cases hm : y.mapM Raw.toInt? with
      | none => rw [hm] at h; cases h
      | some zs =>
        rw [hm] at h
        dsimp only at h
        have hy := (mapM_toInt_iff y zs).mp hm
        by_cases h1 : zs = []
        · rw [if_pos h1] at h; cases h
        rw [if_neg h1] at h
        by_cases h2 : (zs.any fun a => decide (a < 0)) = true
        · rw [if_pos h2] at h; cases h
        rw [if_neg h2] at h
        by_cases h3 : (!allowOne && decide ((npUnique (zs.map Int.toNat)).length < 2)) = true
        · rw [if_pos h3] at h; cases h
        rw [if_neg h3] at h
        by_cases h4 : (!allowMissing && decide (npUnique (zs.map Int.toNat) ≠ List.range (npUnique (zs.map Int.toNat)).length)) = true
        · rw [if_pos h4] at h; cases h
        rw [if_neg h4] at h
        simp only [Except.ok.injEq] at h
        subst h
        have hne : zs.map Int.toNat ≠ [] := by simpa using h1
        refine ⟨?_, hne, ?_, ?_⟩
        · unfold AreClasses
          rw [hy, List.map_map]
          refine List.map_congr_left (fun a ha => ?_)
          have : ¬a < 0 := by
            intro hlt
            exact h2 (List.any_eq_true.mpr ⟨a, ha, by simpa using hlt⟩)
          simp only [Function.comp]
          congr 1
          have h5 : ((a.toNat : ℕ) : ℤ) = a := Int.toNat_of_nonneg (by omega)
          rw [← Int.cast_natCast, h5]
        · cases allowOne with
          | true => exact Or.inl rfl
          | false =>
            right
            by_contra hcon
            exact h3 (by simpa using (huniq _ hne).mpr hcon)
        · cases allowMissing with
          | true => exact Or.inl rfl
          | false =>
            right
            refine (hrange _).mp ?_
            by_contra hcon
            exact h4 (by simpa using hcon)
  · rintro ⟨hy, hne, hone, hmiss⟩
    unfold AreClasses at hy
    have htext : (y.any Raw.isText) = false := by
      rw [hy]
      simp [Raw.isText]
    have hm : y.mapM Raw.toInt? = some (z.map (fun a : ℕ => (a : ℤ))) := by
      rw [mapM_toInt_iff, hy, List.map_map]
      refine List.map_congr_left (fun a _ => ?_)
      simp
    rw [htext, hm]
    simp only [Bool.false_eq_true, if_false]
    have hz : (z.map (fun a : ℕ => (a : ℤ))).map Int.toNat = z := by
      rw [List.map_map]
      conv_rhs => rw [← List.map_id z]
      exact List.map_congr_left (fun a _ => by simp)
    rw [if_neg (by simpa using hne), if_neg (by simp), hz]
    rw [if_neg, if_neg]
    · intro h
      rw [Bool.and_eq_true] at h
      rcases hmiss with hmiss | hmiss
      · rw [hmiss] at h; simp at h
      · exact of_decide_eq_true h.2 ((hrange z).mpr hmiss)
    · intro h
      rw [Bool.and_eq_true] at h
      rcases hone with hone | hone
      · rw [hone] at h; simp at h
      · exact (huniq z hne).mp (of_decide_eq_true h.2) hone

variable {n K : ℕ}

/-- **C96.** Features are accepted exactly if the labels are and there is one row per label. -/
theorem C96_features (allowMissing allowOne : Bool) (X : Option ℕ) (y : List Raw) :
    validFeatures allowMissing allowOne X y = .ok () ↔
      ∃ z, validClassLabels allowMissing allowOne y = .ok z ∧ X = some y.length := by
  unfold validFeatures
  cases h : validClassLabels allowMissing allowOne y with
  | error e => simp [bind, Except.bind]
  | ok z =>
    have hlen : z.length = y.length := by
      have := ((C96_labels allowMissing allowOne y z).mp h).1
      unfold AreClasses at this
      rw [this]; simp
    dsimp only [bind, Except.bind]
    cases X with
    | none => simp
    | some l =>
      dsimp only
      by_cases hl : l = z.length
      · rw [if_neg (by simpa using hl)]
        simp [hl, hlen]
      · rw [if_pos hl]
        constructor
        · intro h; cases h
        · rintro ⟨z', _, h2⟩
          simp only [Option.some.injEq] at h2
          omega

/-- **C96.** Predicted probabilities without `nan` are accepted exactly if the labels are valid classes of the columns, there
is one row per label, and every entry is in `[0, 1]` up to `1e-6`. Missing: `nan` (`C96_not_nan`). -/
theorem C96_probs_partial (allowMissing allowOne : Bool) (y : List Raw) (P : Fin n → Fin K → ℚ) :
    validProbs allowMissing allowOne y (fun i k => some (P i k)) = .ok () ↔
      ∃ z, validClassLabels allowMissing allowOne y = .ok z ∧ n = z.length ∧ (∀ a ∈ z, a < K) ∧
        ∀ i k, -(1 / 10 ^ 6) ≤ P i k ∧ P i k ≤ 1 + 1 / 10 ^ 6 := by
  unfold validProbs
  cases h : validClassLabels allowMissing allowOne y with
  | error e => simp [bind, Except.bind]
  | ok z =>
    have hne := ((C96_labels allowMissing allowOne y z).mp h).2.1
    have hout : outOfRange (fun i k => some (P i k)) = true ↔
        ¬∀ i k, -(1 / 10 ^ 6) ≤ P i k ∧ P i k ≤ 1 + 1 / 10 ^ 6 := by
      unfold outOfRange tol
      rw [Bool.and_eq_true, decide_eq_true_iff, decide_eq_true_iff]
      push Not
      constructor
      · rintro ⟨_, i, k, p, hp, h⟩
        simp only [Option.mem_def, Option.some.injEq] at hp
        subst hp
        refine ⟨i, k, fun h1 => ?_⟩
        rcases h with h | h
        · exact absurd h (by rw [zero_sub]; exact not_lt.mpr h1)
        · exact h
      · rintro ⟨i, k, h⟩
        refine ⟨fun _ _ => rfl, i, k, P i k, rfl, ?_⟩
        by_cases h1 : -(1 / 10 ^ 6) ≤ P i k
        · exact Or.inr (h h1)
        · left; rw [zero_sub]; exact not_le.mp h1
    dsimp only [bind, Except.bind]
    by_cases hn : n = z.length
    · rw [if_neg (by simpa using hn)]
      by_cases hK : (z.any fun a => decide (K ≤ a)) = true
      · rw [if_pos hK]
        constructor
        · intro h; cases h
        · rintro ⟨z', hz', _, h2, _⟩
          obtain ⟨a, ha, hKa⟩ := List.any_eq_true.mp hK
          simp only [Except.ok.injEq] at hz'
          subst hz'
          exact absurd (h2 a ha) (not_lt.mpr (of_decide_eq_true hKa))
      · rw [if_neg hK]
        have hK' : ∀ a ∈ z, a < K := by
          intro a ha
          by_contra hcon
          exact hK (List.any_eq_true.mpr ⟨a, ha, by simpa using hcon⟩)
        obtain ⟨a, ha⟩ := List.exists_mem_of_ne_nil _ hne
        have hKpos : K ≠ 0 := by have := hK' a ha; omega
        have hnpos : n ≠ 0 := by rw [hn]; exact fun h => hne (List.length_eq_zero_iff.mp h)
        rw [if_neg (by simp [hKpos, hnpos])]
        by_cases ho : outOfRange (fun i k => some (P i k)) = true
        · rw [if_pos ho]
          constructor
          · intro h; cases h
          · rintro ⟨_, _, _, _, h4⟩
            exact absurd h4 (hout.mp ho)
        · rw [if_neg ho]
          refine ⟨fun _ => ⟨z, rfl, hn, hK', ?_⟩, fun _ => rfl⟩
          by_contra hcon
          exact ho (hout.mpr hcon)
    · rw [if_pos hn]
      constructor
      · intro h; cases h
      · rintro ⟨z', hz', h1, _⟩
        simp only [Except.ok.injEq] at hz'
        subst hz'
        exact absurd h1 hn

/-- **C96.** Multi-label data with at least one label, with labels `≥ 0` and without `nan`, are accepted exactly if there is
one row per example, every label has a column and every entry is in `[0, 1]` up to `1e-6`. Missing: negative labels and
data without labels (`C96_not_multilabel`). -/
theorem C96_multilabel_partial (y : List (List ℤ)) (P : Fin n → Fin K → ℚ) (hne : y.flatten ≠ [])
    (h0 : ∀ a ∈ y.flatten, 0 ≤ a) :
    validMultilabel y (fun i k => some (P i k)) = .ok () ↔
      n = y.length ∧ (∀ l ∈ y, ∀ a ∈ l, a < K) ∧ ∀ i k, -(1 / 10 ^ 6) ≤ P i k ∧ P i k ≤ 1 + 1 / 10 ^ 6 := by
  have hout : outOfRange (fun i k => some (P i k)) = true ↔
      ¬∀ i k, -(1 / 10 ^ 6) ≤ P i k ∧ P i k ≤ 1 + 1 / 10 ^ 6 := by
    unfold outOfRange tol
    rw [Bool.and_eq_true, decide_eq_true_iff, decide_eq_true_iff]
    push Not
    constructor
    · rintro ⟨_, i, k, p, hp, h⟩
      simp only [Option.mem_def, Option.some.injEq] at hp
      subst hp
      refine ⟨i, k, fun h1 => ?_⟩
      rcases h with h | h
      · exact absurd h (by rw [zero_sub]; exact not_lt.mpr h1)
      · exact h
    · rintro ⟨i, k, h⟩
      refine ⟨fun _ _ => rfl, i, k, P i k, rfl, ?_⟩
      by_cases h1 : -(1 / 10 ^ 6) ≤ P i k
      · exact Or.inr (h h1)
      · left; rw [zero_sub]; exact not_le.mp h1
  have hcol : (y.flatten.any fun a => decide ((K : ℤ) < a + 1)) = true ↔ ¬∀ l ∈ y, ∀ a ∈ l, a < (K : ℤ) := by
    rw [List.any_eq_true]
    push Not
    constructor
    · rintro ⟨a, ha, h⟩
      obtain ⟨l, hl, hal⟩ := List.mem_flatten.mp ha
      exact ⟨l, hl, a, hal, by have := of_decide_eq_true h; omega⟩
    · rintro ⟨l, hl, a, ha, h⟩
      exact ⟨a, List.mem_flatten.mpr ⟨l, hl, ha⟩, by rw [decide_eq_true_iff]; omega⟩
  unfold validMultilabel
  by_cases hn : n = y.length
  · rw [if_neg (by simpa using hn), if_neg hne]
    by_cases hK : (y.flatten.any fun a => decide ((K : ℤ) < a + 1)) = true
    · rw [if_pos hK]
      constructor
      · intro h; cases h
      · rintro ⟨_, h, _⟩; exact absurd h (hcol.mp hK)
    · rw [if_neg hK]
      have hK' : ∀ l ∈ y, ∀ a ∈ l, a < (K : ℤ) := by by_contra hcon; exact hK (hcol.mpr hcon)
      obtain ⟨a, ha⟩ := List.exists_mem_of_ne_nil _ hne
      obtain ⟨l, hl, hal⟩ := List.mem_flatten.mp ha
      have hKpos : K ≠ 0 := by have := hK' l hl a hal; have := h0 a ha; omega
      have hnpos : n ≠ 0 := by
        rw [hn]
        intro h
        rw [List.length_eq_zero_iff.mp h] at hl
        cases hl
      rw [if_neg (by simp [hKpos, hnpos])]
      by_cases ho : outOfRange (fun i k => some (P i k)) = true
      · rw [if_pos ho]
        constructor
        · intro h; cases h
        · rintro ⟨_, _, h⟩; exact absurd h (hout.mp ho)
      · rw [if_neg ho]
        refine ⟨fun _ => ⟨hn, hK', ?_⟩, fun _ => rfl⟩
        by_contra hcon
        exact ho (hout.mpr hcon)
  · rw [if_pos hn]
    constructor
    · intro h; cases h
    · rintro ⟨h, _⟩; exact absurd h hn

/-- **C96.** Datalab's own validation of predicted probabilities accepts exactly matrices without `nan`, with entries in
`[0, 1]` and row sums of 1 up to the tolerance of `np.allclose`. -/
theorem C96_model_outputs (P : Fin n → Fin K → Option ℚ) :
    validateMultiClass P = .ok () ↔ ∃ Q : Fin n → Fin K → ℚ, (∀ i k, P i k = some (Q i k)) ∧
      (∀ i k, 0 ≤ Q i k ∧ Q i k ≤ 1) ∧ ∀ i, |∑ k, Q i k - 1| ≤ 1 / 10 ^ 8 + 1 / 10 ^ 5 := by
  unfold validateMultiClass closeToOne
  constructor
  · intro h
    by_cases h1 : ∀ i k, ∃ p ∈ P i k, 0 ≤ p ∧ p ≤ 1
    · rw [if_neg (by simpa using h1)] at h
      by_cases h2 : ∀ i, decide (|∑ k, (P i k).getD 0 - 1| ≤ 1 / 10 ^ 8 + 1 / 10 ^ 5) = true
      · choose Q hQ h0 using h1
        refine ⟨Q, hQ, h0, fun i => ?_⟩
        have := of_decide_eq_true (h2 i)
        have hsum : ∑ k, (P i k).getD 0 = ∑ k, Q i k :=
          Finset.sum_congr rfl (fun k _ => by have := hQ i k; simp only [Option.mem_def] at this; rw [this]; rfl)
        rwa [hsum] at this
      · rw [if_pos h2] at h; cases h
    · rw [if_pos h1] at h; cases h
  · rintro ⟨Q, hQ, h0, hs⟩
    rw [if_neg, if_neg]
    · push Not
      intro i
      rw [decide_eq_true_iff]
      have hsum : ∑ k, (P i k).getD 0 = ∑ k, Q i k :=
        Finset.sum_congr rfl (fun k _ => by rw [hQ i k]; rfl)
      rw [hsum]; exact hs i
    · push Not
      exact fun i k => ⟨Q i k, by rw [hQ i k]; rfl, h0 i k⟩

example : validProbs true false [.num 0, .num 1] (fun (i : Fin 2) (k : Fin 2) => some (if i = k then 3 / 4 else 1 / 4)) =
    .ok () := by decide +kernel

example : validProbs true false [.num 0, .num (1 / 2)] (fun (_ : Fin 2) (_ : Fin 2) => some (1 / 2)) =
    .error "Labels must be zero-indexed integers corresponding to class indices." := by decide +kernel

/-- **C96 is violated.** A matrix with one `nan` is accepted, whatever its other entries are. -/
theorem C96_not_nan (P : Fin n → Fin K → Option ℚ) (i : Fin n) (k : Fin K) (h : P i k = none) (y : List Raw) (z : List ℕ)
    (hy : validClassLabels true false y = .ok z) (hn : n = z.length) (hK : ∀ a ∈ z, a < K) :
    validProbs true false y P = .ok () := by
  unfold validProbs
  rw [hy]
  dsimp only [bind, Except.bind]
  rw [if_neg (by simpa using hn), if_neg, if_neg, if_neg]
  · unfold outOfRange
    rw [Bool.and_eq_true, decide_eq_true_iff]
    rintro ⟨h1, _⟩
    have := h1 i k
    rw [h] at this
    cases this
  · rintro (h1 | h1)
    · exact (h1 ▸ i).elim0
    · exact (h1 ▸ k).elim0
  · intro hcon
    obtain ⟨a, ha, hKa⟩ := List.any_eq_true.mp hcon
    exact absurd (hK a ha) (not_lt.mpr (of_decide_eq_true hKa))

example : validProbs true false [.num 0, .num 1]
    (fun (i : Fin 2) (k : Fin 2) => if i = k then none else some 7) = .ok () := by decide +kernel

/-- **C96 is violated.** In multi-label data a negative label is accepted, and data without any label are refused although
they are valid. -/
theorem C96_not_multilabel :
    (∃ (y : List (List ℤ)) (P : Fin 2 → Fin 2 → Option ℚ), validMultilabel y P = .ok () ∧ ∃ l ∈ y, ∃ a ∈ l, a < 0) ∧
    (∃ (y : List (List ℤ)) (P : Fin 2 → Fin 2 → Option ℚ) (e : String), validMultilabel y P = .error e ∧
      y.length = 2 ∧ (∀ l ∈ y, ∀ a ∈ l, 0 ≤ a ∧ a < 2) ∧ ∀ i k, P i k = some (1 / 2)) := by
  refine ⟨⟨[[-1], [0, 1]], fun _ _ => some (1 / 2), by decide +kernel, by decide +kernel⟩,
    [[], []], fun _ _ => some (1 / 2), "max() arg is an empty sequence", by decide +kernel, rfl, by simp, fun _ _ => rfl⟩

/-- **C96 is violated.** Datalab never calls its validation: predictions that it refuses are passed on to the checks. -/
theorem C96_not_validated :
    ∃ P : Fin 2 → Fin 2 → Option ℚ, modelOutput P = .ok P ∧ ∃ e, validateMultiClass P = .error e :=
  ⟨fun _ _ => some 7, rfl, "Expected pred_probs to be between 0 and 1", by decide +kernel⟩

end Cleanlab.Props
