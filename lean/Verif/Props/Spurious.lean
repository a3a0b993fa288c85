import Verif.Model.Spurious
import Verif.Props.DatalabChecks
import Mathlib.Tactic.Linarith
import Mathlib.Tactic.FieldSimp
import Mathlib.Tactic.Positivity
import Mathlib.Tactic.Ring
import Mathlib.Data.List.Perm.Subperm

/-!
# C44 and C107: spurious correlations between image properties and labels

The scores belong to C44, the check and its report to C107.
-/

namespace Cleanlab.Props

open Cleanlab.Checks Cleanlab.Spurious

/-- The accuracy of always predicting the class `k`. -/
def constantAccuracy (labels : List ℕ) (k : ℕ) : ℚ := (labels.count k : ℚ) / labels.length

/-- `a` is the accuracy of always predicting a most common class. -/
def IsMajorityAccuracy (labels : List ℕ) (a : ℚ) : Prop :=
  (∃ k ∈ labels, a = constantAccuracy labels k) ∧ ∀ k ∈ labels, constantAccuracy labels k ≤ a

/-- The documented score: one minus the relative improvement over always predicting the most common class, where a worse
accuracy is no improvement. -/
def documentedScore (majority accuracy : ℚ) : ℚ :=
  if accuracy ≤ majority then 1 else 1 - (accuracy - majority) / (1 - majority)

/-- The labels are encoded as `0, …, K - 1` and every class occurs, as after the encoding by `Data`. -/
def Encoded (labels : List ℕ) : Prop := ∀ c ∈ labels, ∀ k ≤ c, k ∈ labels

theorem lt_length_of_encoded (labels : List ℕ) (h : Encoded labels) (c : ℕ) (hc : c ∈ labels) : c < labels.length := by
  have hsub : List.range (c + 1) ⊆ labels := by
    intro k hk
    rw [List.mem_range] at hk
    exact h c hc k (by omega)
  have := (List.nodup_range.subperm hsub).length_le
  rw [List.length_range] at this
  omega

theorem baseline_bounds (labels : List ℕ) (h : Encoded labels) (b : ℚ) (hb : getBaseline labels = .ok b) :
    0 ≤ b ∧ b < 1 := by
  obtain ⟨c, hc, _, rfl, _⟩ := C44_baseline_partial labels b hb
  have hlt := lt_length_of_encoded labels h c hc
  have hpos : (0 : ℚ) < labels.length := by
    have : 0 < labels.length := by omega
    exact_mod_cast this
  refine ⟨by positivity, ?_⟩
  rw [div_lt_one hpos]
  exact_mod_cast hlt

/-- For a baseline below one the ratio is the documented score for this baseline. -/
theorem relativeRoom_eq (b a : ℚ) (hb : b < 1) : relativeRoom b a = documentedScore b a := by
  unfold relativeRoom documentedScore
  have hd : (0 : ℚ) < 1 - b := by linarith
  dsimp only
  rw [if_neg (ne_of_lt hb)]
  split_ifs with h
  · rw [min_eq_left]
    rw [le_div_iff₀ hd]
    linarith
  · push Not at h
    rw [min_eq_right]
    · field_simp
      ring
    · rw [div_le_one hd]
      linarith

/-- **C44, range.** For encoded labels scores lie between 0 and 1, and a property that predicts the labels perfectly gets
0. -/
theorem C44_range (labels : List ℕ) (h : Encoded labels) (accuracy : ℚ) (ha : accuracy ≤ 1) (s : ℚ)
    (hs : propertyScore labels accuracy = .ok s) : 0 ≤ s ∧ s ≤ 1 ∧ (accuracy = 1 → s = 0) := by
  obtain ⟨h1, h2⟩ := C44_score_range_partial labels accuracy ha s hs
  refine ⟨h2 (fun c hc => (lt_length_of_encoded labels h c hc).le), h1, ?_⟩
  rintro rfl
  unfold propertyScore at hs
  cases hb : getBaseline labels with
  | error e => simp [hb, Except.map] at hs
  | ok b =>
    simp only [hb, Except.map, Except.ok.injEq] at hs
    rw [← hs]
    simp [relativeRoom]

example : Encoded [0, 0, 0, 1] ∧ propertyScore [0, 0, 0, 1] 1 = .ok 0 := by
  refine ⟨?_, by decide +kernel⟩
  unfold Encoded
  decide

/-- **C44, partial.** The score is the documented one if the number of every most common class happens to be the number of
its examples.  Missing: all other data, where it is not (see `C44_not_documented`). -/
theorem C44_documented_partial (labels : List ℕ) (h : Encoded labels) (accuracy s a : ℚ)
    (hs : propertyScore labels accuracy = .ok s) (ha : IsMajorityAccuracy labels a)
    (hsame : ∀ k ∈ labels, constantAccuracy labels k = a → k = labels.count k) :
    s = documentedScore a accuracy := by
  unfold propertyScore at hs
  cases hb : getBaseline labels with
  | error e => simp [hb, Except.map] at hs
  | ok b =>
    simp only [hb, Except.map, Except.ok.injEq] at hs
    have hlt := (baseline_bounds labels h b hb).2
    obtain ⟨c, hc, hmax, hbc, _⟩ := C44_baseline_partial labels b hb
    obtain ⟨⟨k, hk, hka⟩, hall⟩ := ha
    have hca : constantAccuracy labels c = a := by
      refine le_antisymm (hall c hc) ?_
      rw [hka]
      exact div_le_div_of_nonneg_right (by exact_mod_cast hmax k hk) (by positivity)
    have : b = a := by
      rw [← hca, hbc]
      unfold constantAccuracy
      rw [← hsame c hc hca]
    rw [← hs, relativeRoom_eq _ _ hlt, this]

/-- A case where the two agree: the class number 3 has three of six examples. -/
example : propertyScore [0, 1, 2, 3, 3, 3] (2 / 3) = .ok (2 / 3) ∧ Encoded [0, 1, 2, 3, 3, 3] ∧
    IsMajorityAccuracy [0, 1, 2, 3, 3, 3] (1 / 2) ∧
    ∀ k ∈ [0, 1, 2, 3, 3, 3], constantAccuracy [0, 1, 2, 3, 3, 3] k = 1 / 2 → k = [0, 1, 2, 3, 3, 3].count k := by
  refine ⟨by decide +kernel, ?_, ⟨⟨3, by decide, by decide +kernel⟩, by decide +kernel⟩, by decide +kernel⟩
  unfold Encoded
  decide

/-- The score is not the documented one, also for encoded labels.  Three of four labels are the class 0, and a property
from which nothing better than class 0 can be predicted has the accuracy 3/4: the documented score is 1, the code gives
1/4, which is below the default threshold. -/
theorem C44_not_documented :
    Encoded [0, 0, 0, 1] ∧ IsMajorityAccuracy [0, 0, 0, 1] (3 / 4) ∧ documentedScore (3 / 4) (3 / 4) = 1 ∧
      propertyScore [0, 0, 0, 1] (3 / 4) = .ok (1 / 4) ∧ 1 / 4 < defaultThreshold := by
  refine ⟨?_, ⟨⟨0, by decide, by decide +kernel⟩, by decide +kernel⟩, by decide +kernel, by decide +kernel,
    by decide +kernel⟩
  unfold Encoded
  decide

/-- The score depends on how the classes are numbered: with the two classes exchanged the same data give 1/3 instead of
1/4. -/
theorem C44_not_renumbering :
    [0, 0, 0, 1].map (fun c : ℕ => 1 - c) = [1, 1, 1, 0] ∧
      propertyScore [0, 0, 0, 1] (3 / 4) = .ok (1 / 4) ∧ propertyScore [1, 1, 1, 0] (3 / 4) = .ok (1 / 3) := by
  refine ⟨by decide, by decide +kernel, by decide +kernel⟩

/-- **C107, rows.** The stored table has one row for each property, in order, with the score of the property. -/
theorem C107_rows (labels : List ℕ) (accuracy : String → ℚ) (properties : List String)
    (rows : List (String × ℚ)) (h : calculateCorrelations labels accuracy properties = .ok rows) :
    rows.map (·.1) = properties ∧ ∀ r ∈ rows, propertyScore labels (accuracy r.1) = .ok r.2 := by
  unfold calculateCorrelations at h
  split at h
  · exact absurd h (by simp)
  · rename_i b hb
    rw [← Except.ok.inj h, List.map_map]
    refine ⟨List.map_id _, ?_⟩
    intro r hr
    obtain ⟨p, _, rfl⟩ := List.mem_map.mp hr
    simp [propertyScore, hb, Except.map]

/-- **C107, labels.** The table exists for all labels except none at all. -/
theorem C107_succeeds (labels : List ℕ) (accuracy : String → ℚ) (properties : List String) :
    (∃ rows, calculateCorrelations labels accuracy properties = .ok rows) ↔ labels ≠ [] := by
  unfold calculateCorrelations
  cases hb : getBaseline labels with
  | error e =>
    simp only [reduceCtorEq, exists_false, false_iff, not_not]
    unfold getBaseline at hb
    split at hb
    · rename_i hn
      rw [List.argmax_eq_none] at hn
      by_contra hne
      obtain ⟨c, hc⟩ := List.exists_mem_of_ne_nil labels hne
      have := label_mem_bins labels c hc
      simp [hn] at this
    · simp at hb
  | ok b =>
    simp only [Except.ok.injEq, exists_eq', true_iff]
    obtain ⟨c, hc, _⟩ := C44_baseline_partial labels b hb
    exact List.ne_nil_of_mem hc

/-- **C107, report.** With a positive threshold exactly the properties with a score below it are reported. -/
theorem C107_reported (info : Info) (ht : 0 < info.threshold) (p : String) :
    p ∈ reported (some info) ↔ ∃ s, (p, s) ∈ info.correlations ∧ s < info.threshold := by
  unfold reported
  dsimp only
  rw [if_neg (ne_of_gt ht)]
  constructor
  · intro h
    obtain ⟨r, hr, rfl⟩ := List.mem_map.mp h
    obtain ⟨h1, h2⟩ := List.mem_filter.mp hr
    exact ⟨r.2, h1, by simpa using h2⟩
  · rintro ⟨s, h1, h2⟩
    exact List.mem_map.mpr ⟨(p, s), List.mem_filter.mpr ⟨h1, by simpa using h2⟩, rfl⟩

example : reported (some ⟨[("dark_score", 1 / 5), ("blurry_score", 1)], defaultThreshold⟩) = ["dark_score"] := by
  decide +kernel

/-- **C107, when it runs.** A call that asks for other checks only leaves the stored result alone; so does one without
labels or before any image property was computed.  Otherwise the result is replaced by that of the current scores, with
the given threshold or 0.3. -/
theorem C107_runs (old : Option Info) (labels : Option (List ℕ)) (accuracy : String → ℚ) (columns : List String)
    (available : Bool) (request : Request) :
    (request = .others ∨ labels = none ∨ available = false →
      Spurious.runCheck old labels accuracy columns available request = old) ∧
    (∀ y rows t, labels = some y → available = true → calculateCorrelations y accuracy columns = .ok rows →
      (request = .trivial ∧ t = 3 / 10 ∨ request = .asked none ∧ t = 3 / 10 ∨ request = .asked (some t)) →
      Spurious.runCheck old labels accuracy columns available request = some ⟨rows, t⟩) := by
  constructor
  · rintro (rfl | rfl | rfl)
    · rfl
    · cases request <;> cases available <;> rfl
    · cases request <;> rfl
  · rintro y rows t rfl rfl hrows (⟨rfl, rfl⟩ | ⟨rfl, rfl⟩ | rfl) <;>
      simp [Spurious.runCheck, Spurious.runCheck.go, hrows, defaultThreshold]

example : Spurious.runCheck none (some [0, 0, 0, 1]) (fun _ => 1) ["dark_score"] true (.asked none) =
    some ⟨[("dark_score", 0)], 3 / 10⟩ :=
  (C107_runs none _ _ _ _ _).2 [0, 0, 0, 1] _ _ rfl rfl (by decide +kernel) (Or.inr (Or.inl ⟨rfl, rfl⟩))

end Cleanlab.Props
