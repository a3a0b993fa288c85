import Verif.Np.Median
import Mathlib.Data.Rat.Floor
import Mathlib.Data.List.Sort
import Mathlib.Data.Rat.Cast.Order
import Mathlib.Tactic.Linarith
import Mathlib.Tactic.Positivity

/-!
# `np.percentile`
-/

namespace Np

variable {F : Type} [Field F] [LinearOrder F]

/-- `np.percentile(l, 100 q)` with linear interpolation; `none` (an error) for an empty array. -/
def percentile (A : ArgSort F) (q : ℚ) (l : List F) : Option F := do
  let s := sortOn A id l
  let pos : ℚ := ((l.length : ℚ) - 1) * q
  let lo := ⌊pos⌋.toNat
  let a ← s[lo]?
  let b ← s[min (lo + 1) (l.length - 1)]?
  return a + (b - a) * ((pos - ⌊pos⌋ : ℚ) : F)

/-- The position of the percentile in the sorted list. -/
def percentilePos (n : ℕ) (q : ℚ) : ℚ := ((n : ℚ) - 1) * q

theorem percentilePos_bounds (n : ℕ) (hn : 0 < n) (q : ℚ) (h0 : 0 ≤ q) (h1 : q ≤ 1) :
    0 ≤ percentilePos n q ∧ ⌊percentilePos n q⌋.toNat < n := by
  have hn1 : (1 : ℚ) ≤ n := by exact_mod_cast hn
  have hp : 0 ≤ percentilePos n q := mul_nonneg (by linarith) h0
  refine ⟨hp, ?_⟩
  have h2 : percentilePos n q ≤ (n : ℚ) - 1 := by
    unfold percentilePos
    nlinarith
  have h3 : ⌊percentilePos n q⌋ < (n : ℤ) := by
    have : (⌊percentilePos n q⌋ : ℚ) ≤ percentilePos n q := Int.floor_le _
    have : (⌊percentilePos n q⌋ : ℚ) < (n : ℤ) := by push_cast; linarith
    exact_mod_cast this
  have h4 : 0 ≤ ⌊percentilePos n q⌋ := Int.floor_nonneg.mpr hp
  omega

variable [IsStrictOrderedRing F]

theorem frac_bounds (p : ℚ) : 0 ≤ ((p - ⌊p⌋ : ℚ) : F) ∧ ((p - ⌊p⌋ : ℚ) : F) < 1 := by
  constructor
  · have : (0 : ℚ) ≤ p - ⌊p⌋ := sub_nonneg.mpr (Int.floor_le p)
    exact_mod_cast this
  · have : p - ⌊p⌋ < 1 := by have := Int.lt_floor_add_one p; linarith
    exact_mod_cast this

omit [IsStrictOrderedRing F] in
/-- The percentile as an interpolation of two neighbouring values of the sorted list. -/
theorem percentile_eq (A : ArgSort F) (q : ℚ) (l : List F) (hl : l ≠ []) (h0 : 0 ≤ q) (h1 : q ≤ 1) :
    ∃ (hlo : ⌊percentilePos l.length q⌋.toNat < (sortOn A id l).length)
      (hhi : min (⌊percentilePos l.length q⌋.toNat + 1) (l.length - 1) < (sortOn A id l).length),
      percentile A q l = some ((sortOn A id l)[⌊percentilePos l.length q⌋.toNat] +
        ((sortOn A id l)[min (⌊percentilePos l.length q⌋.toNat + 1) (l.length - 1)] -
          (sortOn A id l)[⌊percentilePos l.length q⌋.toNat]) *
          ((percentilePos l.length q - ⌊percentilePos l.length q⌋ : ℚ) : F)) := by
  have hpos : 0 < l.length := List.length_pos_iff.mpr hl
  have hb := (percentilePos_bounds l.length hpos q h0 h1).2
  have hlen := length_sortOn A id l
  have hlo : ⌊percentilePos l.length q⌋.toNat < (sortOn A id l).length := by omega
  have hhi : min (⌊percentilePos l.length q⌋.toNat + 1) (l.length - 1) < (sortOn A id l).length := by omega
  refine ⟨hlo, hhi, ?_⟩
  have : percentile A q l = (do
      let a ← (sortOn A id l)[⌊percentilePos l.length q⌋.toNat]?
      let b ← (sortOn A id l)[min (⌊percentilePos l.length q⌋.toNat + 1) (l.length - 1)]?
      return a + (b - a) * ((percentilePos l.length q - ⌊percentilePos l.length q⌋ : ℚ) : F)) := rfl
  rw [this, List.getElem?_eq_getElem hlo, List.getElem?_eq_getElem hhi]
  rfl

omit [Field F] [IsStrictOrderedRing F] in
theorem sorted_get_le (s : List F) (hs : s.Pairwise (fun x y => x ≤ y)) (i j : ℕ) (hi : i < s.length) (hj : j < s.length)
    (h : i ≤ j) : s[i] ≤ s[j] := by
  rcases Nat.lt_or_ge i j with h1 | h1
  · exact List.pairwise_iff_getElem.mp hs i j hi hj h1
  · have : i = j := by omega
    subst this; exact le_rfl

/-- Few values lie strictly above a percentile. -/
theorem percentile_above (A : ArgSort F) (q : ℚ) (l : List F) (hl : l ≠ []) (h0 : 0 ≤ q) (h1 : q ≤ 1) (v : F)
    (h : percentile A q l = some v) :
    l.countP (fun x => decide (v < x)) ≤ l.length - (⌊percentilePos l.length q⌋.toNat + 1) := by
  obtain ⟨hlo, hhi, he⟩ := percentile_eq A q l hl h0 h1
  have hs : (sortOn A id l).Pairwise (fun x y => x ≤ y) := sortOn_sorted A id l
  have hv : (sortOn A id l)[⌊percentilePos l.length q⌋.toNat] ≤ v := by
    have := Option.some.inj (he.symm.trans h)
    have hab : (sortOn A id l)[⌊percentilePos l.length q⌋.toNat] ≤
        (sortOn A id l)[min (⌊percentilePos l.length q⌋.toNat + 1) (l.length - 1)] :=
      sorted_get_le _ hs _ _ _ _ (by have := length_sortOn A id l; omega)
    have := mul_nonneg (sub_nonneg.mpr hab) (frac_bounds (F := F) (percentilePos l.length q)).1
    linarith
  rw [← (sortOn_perm A id l).countP_eq, ← length_sortOn A id l]
  refine countP_le_of_take _ _ _ (fun x hx => ?_)
  rw [length_sortOn] at hx
  have := (sorted_split _ hs _ hlo).1 x hx
  simp only [decide_eq_false_iff_not, not_lt]
  exact this.trans hv

/-- A higher percentile is not smaller. -/
theorem percentile_mono (A : ArgSort F) (q q' : ℚ) (l : List F) (h0 : 0 ≤ q) (hq : q ≤ q') (h1 : q' ≤ 1)
    (v v' : F) (h : percentile A q l = some v) (h' : percentile A q' l = some v') : v ≤ v' := by
  have hl : l ≠ [] := by
    rintro rfl
    have : (sortOn A id ([] : List F)) = [] := List.length_eq_zero_iff.mp (by rw [length_sortOn]; rfl)
    simp [percentile, this] at h
  obtain ⟨hlo, hhi, he⟩ := percentile_eq A q l hl h0 (hq.trans h1)
  obtain ⟨hlo', hhi', he'⟩ := percentile_eq A q' l hl (h0.trans hq) h1
  have hs : (sortOn A id l).Pairwise (fun x y => x ≤ y) := sortOn_sorted A id l
  have hlen := length_sortOn A id l
  have hpos : (1 : ℚ) ≤ l.length := by exact_mod_cast List.length_pos_iff.mpr hl
  have hp : percentilePos l.length q ≤ percentilePos l.length q' := by
    unfold percentilePos
    exact mul_le_mul_of_nonneg_left hq (by linarith)
  have hfl : ⌊percentilePos l.length q⌋ ≤ ⌊percentilePos l.length q'⌋ := Int.floor_le_floor hp
  rw [he] at h
  rw [he'] at h'
  have h := Option.some.inj h
  have h' := Option.some.inj h'
  have g := frac_bounds (F := F) (percentilePos l.length q)
  have g' := frac_bounds (F := F) (percentilePos l.length q')
  have hab := sorted_get_le _ hs ⌊percentilePos l.length q⌋.toNat
    (min (⌊percentilePos l.length q⌋.toNat + 1) (l.length - 1)) hlo hhi (by omega)
  have hab' := sorted_get_le _ hs ⌊percentilePos l.length q'⌋.toNat
    (min (⌊percentilePos l.length q'⌋.toNat + 1) (l.length - 1)) hlo' hhi' (by omega)
  rcases eq_or_lt_of_le hfl with heq | hlt
  · have hgg : ((percentilePos l.length q - ⌊percentilePos l.length q⌋ : ℚ) : F) ≤
        ((percentilePos l.length q' - ⌊percentilePos l.length q'⌋ : ℚ) : F) := by
      rw [heq]
      have : percentilePos l.length q - (⌊percentilePos l.length q'⌋ : ℚ) ≤
        percentilePos l.length q' - (⌊percentilePos l.length q'⌋ : ℚ) := by linarith
      exact_mod_cast this
    rw [← h, ← h']
    have e1 : (sortOn A id l)[⌊percentilePos l.length q⌋.toNat] = (sortOn A id l)[⌊percentilePos l.length q'⌋.toNat] := by
      simp only [heq]
    have e2 : (sortOn A id l)[min (⌊percentilePos l.length q⌋.toNat + 1) (l.length - 1)] =
        (sortOn A id l)[min (⌊percentilePos l.length q'⌋.toNat + 1) (l.length - 1)] := by
      simp only [heq]
    rw [e1, e2] at *
    have := mul_le_mul_of_nonneg_left hgg (sub_nonneg.mpr hab')
    linarith
  · have h5 : 0 ≤ ⌊percentilePos l.length q⌋ := Int.floor_nonneg.mpr
      (percentilePos_bounds l.length (List.length_pos_iff.mpr hl) q h0 (hq.trans h1)).1
    have hmid := sorted_get_le _ hs (min (⌊percentilePos l.length q⌋.toNat + 1) (l.length - 1))
      ⌊percentilePos l.length q'⌋.toNat hhi hlo' (by omega)
    have m1 := mul_le_mul_of_nonneg_left g.2.le (sub_nonneg.mpr hab)
    have m2 := mul_nonneg (sub_nonneg.mpr hab') g'.1
    rw [← h, ← h']
    linarith

/-- Scaling all values scales the percentile. -/
theorem percentile_scale (A : ArgSort F) (q : ℚ) (l : List F) (c : F) (hc : 0 ≤ c) :
    percentile A q (l.map (fun x => c * x)) = (percentile A q l).map (fun v => c * v) := by
  have hsort : sortOn A id (l.map (fun x => c * x)) = (sortOn A id l).map (fun x => c * x) := by
    have h1 : (sortOn A id (l.map (fun x => c * x))).Perm ((sortOn A id l).map (fun x => c * x)) :=
      (sortOn_perm A id _).trans ((sortOn_perm A id l).map _).symm
    have h2 : (sortOn A id (l.map (fun x => c * x))).Pairwise (fun x y => x ≤ y) := sortOn_sorted A id _
    have h3 : ((sortOn A id l).map (fun x => c * x)).Pairwise (fun x y => x ≤ y) := by
      rw [List.pairwise_map]
      exact (sortOn_sorted A id l).imp (fun h => mul_le_mul_of_nonneg_left h hc)
    exact List.Perm.eq_of_pairwise' h2 h3 h1
  unfold percentile
  simp only [hsort, List.length_map, List.getElem?_map]
  cases (sortOn A id l)[⌊((l.length : ℚ) - 1) * q⌋.toNat]? with
  | none => rfl
  | some a =>
    simp only [Option.map_some, Option.bind_eq_bind, Option.bind_some]
    cases (sortOn A id l)[min (⌊((l.length : ℚ) - 1) * q⌋.toNat + 1) (l.length - 1)]? with
    | none => rfl
    | some b =>
      simp only [Option.map_some, Option.bind_some, Option.pure_def, Option.some.injEq]
      ring

omit [IsStrictOrderedRing F] in
/-- The percentile of equal values. -/
theorem percentile_const (A : ArgSort F) (q : ℚ) (l : List F) (hl : l ≠ []) (h0 : 0 ≤ q) (h1 : q ≤ 1) (c : F)
    (hc : ∀ x ∈ l, x = c) : percentile A q l = some c := by
  obtain ⟨hlo, hhi, he⟩ := percentile_eq A q l hl h0 h1
  have hg : ∀ (i : ℕ) (hi : i < (sortOn A id l).length), (sortOn A id l)[i] = c := by
    intro i hi
    exact hc _ ((mem_sortOn A id l _).mp (List.getElem_mem hi))
  rw [he, hg _ hlo, hg _ hhi]
  simp

end Np
