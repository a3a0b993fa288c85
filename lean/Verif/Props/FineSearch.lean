import Verif.Props.Regression

/-!
# C51: where the second search of regression looks
-/

namespace Cleanlab.Props

open Np Cleanlab.Regression

variable {n : ℕ}

theorem fineRange_near (ks : List ℚ) (hks : ks.Pairwise (· ≤ ·)) (b : Fin ks.length) (size : ℕ) (x : ℚ)
    (hx : x ∈ Regression.fineRange ks b size) :
    ks[b.val - 1] ≤ x ∧ x ≤ ks[min (b.val + 1) (ks.length - 1)] := by
  have hlen := b.isLt
  rw [List.pairwise_iff_getElem] at hks
  have hmono : ∀ a c (ha : a < ks.length) (hc : c < ks.length), a ≤ c → ks[a] ≤ ks[c] := by
    intro a c ha hc h
    rcases h.lt_or_eq with h | h
    · exact hks a c ha hc h
    · subst h; exact le_rfl
  unfold Regression.fineRange at hx
  rcases List.mem_append.mp hx with h | h
  · by_cases h0 : 0 < b.val
    · rw [dif_pos h0] at h
      have := linspaceTail_mem _ _ (hmono _ _ _ _ (by omega)) size x h
      exact ⟨this.1, this.2.trans (hmono _ _ _ _ (by omega))⟩
    · rw [dif_neg h0] at h; cases h
  · by_cases h0 : b.val + 1 < ks.length
    · rw [dif_pos h0] at h
      have := linspaceTail_mem _ _ (hmono _ _ _ _ (by omega)) size x h
      exact ⟨(hmono _ _ _ _ (by omega)).trans this.1, this.2.trans (hmono _ _ _ _ (by omega))⟩
    · rw [dif_neg h0] at h; cases h

/-- **C51, search.** The chosen fraction lies between the two given fractions next to a best one of the given fractions. -/
theorem C51_near_best (folds : ℕ) (cv : ℕ → ℚ → Except String (Fin n → ℚ)) (r2 : (Fin n → ℚ) → ℚ) (ks : List ℚ)
    [NeZero ks.length] (hks : ks.Pairwise (· ≤ ·)) (size : ℕ) (k r : ℚ)
    (h : searchSorted folds cv r2 ks size = .ok (k, r)) :
    ∃ (score : Fin ks.length → ℚ) (b : Fin ks.length), (∀ i, candidate folds cv r2 i.val ks[i.val] = .ok (score i)) ∧
      (∀ i, score i ≤ score b) ∧ ks[b.val - 1] ≤ k ∧ k ≤ ks[min (b.val + 1) (ks.length - 1)] := by
  unfold searchSorted at h
  cases hc : collect (fun i : Fin ks.length => candidate folds cv r2 i.val ks[i.val]) with
  | error e => rw [hc] at h; cases h
  | ok coarse =>
    rw [hc] at h
    rw [collect_ok_iff] at hc
    refine ⟨coarse, argmax coarse, hc, le_argmax coarse, ?_⟩
    have hlen := (argmax coarse).isLt
    have hbest : ks[(argmax coarse).val - 1] ≤ ks[(argmax coarse).val] ∧
        ks[(argmax coarse).val] ≤ ks[min ((argmax coarse).val + 1) (ks.length - 1)] := by
      rw [List.pairwise_iff_getElem] at hks
      have hmono : ∀ a c (ha : a < ks.length) (hc : c < ks.length), a ≤ c → ks[a] ≤ ks[c] := by
        intro a c ha hc h
        rcases h.lt_or_eq with h | h
        · exact hks a c ha hc h
        · subst h; exact le_rfl
      exact ⟨hmono _ _ _ _ (by omega), hmono _ _ _ _ (by omega)⟩
    simp only [bind, Except.bind, pure, Except.pure] at h
    by_cases hz : size = 0
    · rw [if_pos hz] at h
      have := Except.ok.inj h
      rw [Prod.mk.injEq] at this
      rw [← this.1]
      exact hbest
    · rw [if_neg hz] at h
      split at h
      · cases h
      · rename_i fine hfine
        cases ha : fine.argmax (·.2) with
        | none => rw [ha] at h; cases h
        | some e =>
          rw [ha] at h
          obtain ⟨k', r'⟩ := e
          simp only [] at h
          by_cases hlt : r' < coarse (argmax coarse)
          · rw [if_pos hlt] at h
            have := Except.ok.inj h
            rw [Prod.mk.injEq] at this
            rw [← this.1]
            exact hbest
          · rw [if_neg hlt] at h
            have := Except.ok.inj h
            rw [Prod.mk.injEq] at this
            rw [← this.1]
            obtain ⟨x, hx, he⟩ := mapM_ok_mem _ _ _ hfine _ (List.argmax_mem ha)
            obtain ⟨x, t⟩ := x
            simp only [] at he
            cases hcd : candidate folds cv r2 (ks.length + t) x with
            | error e => rw [hcd] at he; cases he
            | ok v =>
              rw [hcd] at he
              have := Except.ok.inj he
              rw [Prod.mk.injEq] at this
              rw [← this.1]
              exact fineRange_near ks hks _ size _ (List.fst_mem_of_mem_zipIdx hx)

/-- Among 0, 0.1, 0.2 and 0.3, around the third one with one value on each side. -/
example : Regression.fineRange [0, 1/10, 2/10, 3/10] 2 1 = [15/100, 25/100] := by decide +kernel

end Cleanlab.Props
