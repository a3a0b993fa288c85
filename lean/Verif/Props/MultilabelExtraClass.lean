import Verif.Props.ExtraClass
import Verif.Props.MultilabelSmoothing

/-!
# C248: a class that no example has, nor is predicted to have, and the multi-label scores
-/

namespace Cleanlab.Props

open Np Cleanlab.Rank Cleanlab.Multilabel

variable {n K : ℕ}

theorem foldl_ema_start (a : ℚ) (l : List ℚ) (u w : ℚ) :
    l.foldl (fun acc si => a * si + (1 - a) * acc) u - l.foldl (fun acc si => a * si + (1 - a) * acc) w =
      (1 - a) ^ l.length * (u - w) := by
  induction l generalizing u w with
  | nil => simp
  | cons z l ih =>
    rw [List.foldl_cons, List.foldl_cons, ih, List.length_cons]
    ring

theorem sortDesc_extend (s : Fin K → ℚ) (x : ℚ) (h : ∀ k, s k ≤ x) : sortDesc (extendV s x) = x :: sortDesc s := by
  refine List.Perm.eq_of_pairwise (le := (· ≥ ·)) (fun a b _ _ h1 h2 => le_antisymm h2 h1) (sortDesc_sorted _) ?_ ?_
  · refine List.pairwise_cons.mpr ⟨fun y hy => ?_, sortDesc_sorted s⟩
    obtain ⟨k, rfl⟩ := (mem_sortDesc s y).mp hy
    exact h k
  · refine (sortDesc_perm _).trans (List.Perm.trans ?_ ((sortDesc_perm s).symm.cons x))
    rw [List.ofFn_succ', extendV_last]
    simp only [extendV_castSucc]
    rw [List.concat_eq_append]
    exact List.perm_append_singleton x _

/-- The average after a class with the highest score is added. -/
theorem ema_extend (a : ℚ) (ha0 : 0 ≤ a) (ha1 : a ≤ 1) (s : Fin K → ℚ) (x : ℚ) (h : ∀ k, s k ≤ x) (v v' : ℚ)
    (hv : ema (some a) s = .ok v) (hv' : ema (some a) (extendV s x) = .ok v') :
    ∃ k, (∀ j, s j ≤ s k) ∧ v' = v + (1 - a) ^ K * (x - s k) := by
  rw [ema_some a _ ha0 ha1] at hv hv'
  rw [sortDesc_extend s x h] at hv'
  have hlen := sortDesc_length s
  have hsort := sortDesc_sorted s
  cases hz : sortDesc s with
  | nil => rw [hz] at hv; cases hv
  | cons z zs =>
    rw [hz] at hv hv' hlen hsort
    obtain ⟨k, hk⟩ := (mem_sortDesc s z).mp (by rw [hz]; exact List.mem_cons_self)
    refine ⟨k, fun j => ?_, ?_⟩
    · have hj : s j ∈ z :: zs := by rw [← hz]; exact (mem_sortDesc s _).mpr ⟨j, rfl⟩
      rw [hk]
      rcases List.mem_cons.mp hj with e | e
      · exact e.le
      · exact (List.pairwise_cons.mp hsort).1 _ e
    · rw [← Except.ok.inj hv, ← Except.ok.inj hv', List.foldl_cons]
      have := foldl_ema_start a zs (a * z + (1 - a) * x) z
      rw [← hlen, List.length_cons, hk, pow_succ]
      linarith [this]

/-- The labels with a further class that no example has. -/
def extendY (y : Fin n → Fin K → Bool) : Fin n → Fin (K + 1) → Bool := fun i => extendV (y i) false

theorem givenProb_extend (y : Fin n → Fin K → Bool) (P : Fin n → Fin K → ℚ) (i : Fin n) :
    (fun k => givenProb (extendY y) (extendP P) i k) = extendV (fun k => givenProb y P i k) 1 := by
  funext k
  refine Fin.lastCases ?_ (fun k => ?_) k
  · unfold givenProb extendY
    rw [extendV_last, extendV_last, extendP_last]
    simp
  · unfold givenProb extendY
    rw [extendV_castSucc, extendV_castSucc, extendP_castSucc]

theorem scorer_inv (y : Fin n → Fin K → Bool) (P : Fin n → Fin K → ℚ) (s : Fin n → ℚ)
    (h : scorer selfConf y P = .ok s) (i : Fin n) : ema (some (4 / 5)) (fun k => givenProb y P i k) = .ok (s i) := by
  unfold scorer at h
  split_ifs at h
  rw [classScores_selfConf] at h
  exact (collect_ok_iff _ s).mp h i

/-- **C248, the part that holds.** The score of an example rises by `(1/5)^K` times what its best class lacks to 1, so it never
falls, and an example with a score lower by at least `(1/5)^K` than that of another remains behind it. -/
theorem C248_rise_partial (y : Fin n → Fin K → Bool) (P : Fin n → Fin K → ℚ) (hP : ∀ i k, 0 ≤ P i k ∧ P i k ≤ 1)
    (s s' : Fin n → ℚ) (hs : scorer selfConf y P = .ok s) (hs' : scorer selfConf (extendY y) (extendP P) = .ok s') :
    (∀ i, ∃ k, (∀ j, givenProb y P i j ≤ givenProb y P i k) ∧ s' i = s i + (1 / 5) ^ K * (1 - givenProb y P i k)) ∧
      (∀ i, s i ≤ s' i ∧ s' i ≤ s i + (1 / 5) ^ K) ∧
      (∀ i, (∃ k, givenProb y P i k = 1) → s' i = s i) ∧ ∀ i j, s i + (1 / 5) ^ K ≤ s j → s' i ≤ s' j := by
  have hg : ∀ i k, 0 ≤ givenProb y P i k ∧ givenProb y P i k ≤ 1 := by
    intro i k
    have := hP i k
    unfold givenProb
    split_ifs <;> constructor <;> linarith
  have key : ∀ i, ∃ k, (∀ j, givenProb y P i j ≤ givenProb y P i k) ∧
      s' i = s i + (1 / 5) ^ K * (1 - givenProb y P i k) := by
    intro i
    have h1 := scorer_inv y P s hs i
    have h2 := scorer_inv (extendY y) (extendP P) s' hs' i
    rw [givenProb_extend] at h2
    obtain ⟨k, hk, he⟩ := ema_extend (4 / 5) (by norm_num) (by norm_num) (fun k => givenProb y P i k) 1
      (fun k => (hg i k).2) (s i) (s' i) h1 h2
    refine ⟨k, hk, ?_⟩
    rw [he]
    norm_num
  have hpow : (0 : ℚ) ≤ (1 / 5) ^ K := by positivity
  have hb : ∀ i, s i ≤ s' i ∧ s' i ≤ s i + (1 / 5) ^ K := by
    intro i
    obtain ⟨k, -, he⟩ := key i
    have h0 := mul_nonneg hpow (sub_nonneg.mpr (hg i k).2)
    have h1 := mul_le_mul_of_nonneg_left (sub_le_self (1 : ℚ) (hg i k).1) hpow
    rw [he]
    constructor <;> linarith
  refine ⟨key, hb, fun i ⟨k, hk⟩ => ?_, fun i j hij => ?_⟩
  · obtain ⟨k', hk', he⟩ := key i
    have h1 : givenProb y P i k' = 1 := le_antisymm (hg i k').2 (by rw [← hk]; exact hk' k)
    rw [he, h1]
    ring
  · linarith [(hb i).2, (hb j).1]

/-- **C248 does not hold**: with two classes, an example with class scores 1 and 1/2 is rated higher than one with 3/5 and 59/100;
with a third class that neither has, nor is predicted to have, it is rated lower. -/
theorem C248_not_order :
    scorer (F := ℚ) selfConf ![![true, true], ![true, false]] ![![1, 1 / 2], ![3 / 5, 41 / 100]] = .ok ![3 / 5, 74 / 125] ∧
    (74 / 125 : ℚ) < 3 / 5 ∧
    scorer (F := ℚ) selfConf (extendY ![![true, true], ![true, false]]) (extendP ![![1, 1 / 2], ![3 / 5, 41 / 100]]) =
      .ok ![3 / 5, 76 / 125] ∧
    (3 / 5 : ℚ) < 76 / 125 := by
  refine ⟨ok_of_toOption ?_, by norm_num, ok_of_toOption ?_, by norm_num⟩
  · decide +kernel
  · decide +kernel

end Cleanlab.Props
