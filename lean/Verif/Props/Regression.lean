import Verif.Model.Regression
import Verif.Np.Lemmas
import Verif.Lemmas.Except

/-!
# C51, C75, C76: regression

`learn.py` of the regression package: the fraction removed, the flags, and the cross-validated predictions.
-/

namespace Cleanlab.Props

open Np Cleanlab.Regression

variable {n : ℕ} {κ : Type}

/-! ## Cross-validation -/

theorem mem_pick {α : Type} (l : List α) (p : ℕ → Bool) (x : α) :
    x ∈ pick l p ↔ ∃ q, ∃ h : q < l.length, l[q] = x ∧ p q = true := by
  unfold pick
  simp only [List.mem_map, List.mem_filter]
  constructor
  · rintro ⟨⟨a, q⟩, ⟨h1, h2⟩, rfl⟩
    obtain ⟨hlt, heq⟩ := List.mem_zipIdx' h1
    exact ⟨q, hlt, heq.symm, h2⟩
  · rintro ⟨q, h, rfl, hp⟩
    refine ⟨(l[q], q), ⟨?_, hp⟩, rfl⟩
    rw [List.mem_zipIdx_iff_getElem?]
    simp [h]

theorem mem_pick_getElem {α : Type} (l : List α) (hl : l.Nodup) (p : ℕ → Bool) (q : ℕ) (h : q < l.length) :
    l[q] ∈ pick l p ↔ p q = true := by
  rw [mem_pick]
  constructor
  · rintro ⟨q', h', he, hp⟩
    have : q' = q := (List.Nodup.getElem_inj_iff hl).mp he
    exact this ▸ hp
  · intro hp
    exact ⟨q, h, rfl, hp⟩

theorem cvLoop_apply (fit : Fit n) (assign : ℕ → ℕ) (l : List (Fin n)) (hl : l.Nodup) (q : ℕ) (h : q < l.length) :
    ∀ folds, assign q < folds →
      cvLoop fit assign l folds l[q] = fit (assign q) (pick l (fun p => decide (assign p ≠ assign q))) l[q] := by
  intro folds
  induction folds with
  | zero => intro h; omega
  | succ f ih =>
    intro hf
    unfold cvLoop at ih ⊢
    rw [List.range_succ, List.foldl_append, List.foldl_cons, List.foldl_nil]
    simp only []
    by_cases hq : assign q = f
    · rw [if_pos ((mem_pick_getElem l hl _ q h).mpr (by simpa using hq))]
      rw [hq]
    · rw [if_neg (fun hc => hq (by simpa using (mem_pick_getElem l hl _ q h).mp hc))]
      exact ih (by omega)

theorem cvPredictions_ok (fit : Fit n) (assign : ℕ → ℕ) (s : List (Fin n)) (k : ℚ) (folds : ℕ) (p : Fin n → ℚ)
    (h : cvPredictions fit assign s k folds = .ok p) :
    0 ≤ k ∧ k ≤ 1 ∧ folds ≤ (s.take (s.length - ⌈(s.length : ℚ) * k⌉.toNat)).length ∧
    p = fun i =>
        if i ∈ s.drop (s.length - ⌈(s.length : ℚ) * k⌉.toNat) then
          ((List.range folds).map (fun j => fit j
            (pick (s.take (s.length - ⌈(s.length : ℚ) * k⌉.toNat)) (fun p => assign p ≠ j)) i)).sum / (folds : ℚ)
        else cvLoop fit assign (s.take (s.length - ⌈(s.length : ℚ) * k⌉.toNat)) folds i := by
  unfold cvPredictions at h
  by_cases hk : k < 0 ∨ 1 < k
  · rw [if_pos hk] at h; cases h
  · rw [if_neg hk] at h
    simp only [] at h
    by_cases hf : (s.take (s.length - ⌈(s.length : ℚ) * k⌉.toNat)).length < folds
    · rw [if_pos hf] at h; cases h
    · rw [if_neg hf] at h
      push Not at hk hf
      exact ⟨hk.1, hk.2, hf, (Except.ok.inj h).symm⟩

/-- **C75.** In the cross-validation of the regression learner every example is predicted only by models that were
not trained on it: an example that is kept (it is not among the last `⌈n k⌉` of `sorted_index`) gets the prediction of
the model of its own fold, trained on exactly the kept examples of the other folds; an example left out gets the mean
of the predictions of all fold models, none of which was trained on any example left out. -/
theorem C75_out_of_sample (fit : Fit n) (assign : ℕ → ℕ) (folds : ℕ) (hassign : ∀ q, assign q < folds)
    (s : List (Fin n)) (hs : s.Perm (List.finRange n)) (k : ℚ) (p : Fin n → ℚ)
    (h : cvPredictions fit assign s k folds = .ok p) (q : ℕ) (hq : q < s.length) :
    (q + ⌈(n : ℚ) * k⌉.toNat < n →
      ∃ T : List (Fin n), p s[q] = fit (assign q) T s[q] ∧ s[q] ∉ T ∧
        ∀ r (hr : r < s.length), s[r] ∈ T ↔ r + ⌈(n : ℚ) * k⌉.toNat < n ∧ assign r ≠ assign q) ∧
    (n ≤ q + ⌈(n : ℚ) * k⌉.toNat →
      ∃ T : ℕ → List (Fin n), p s[q] = ((List.range folds).map (fun j => fit j (T j) s[q])).sum / (folds : ℚ) ∧
        ∀ j r (hr : r < s.length), s[r] ∈ T j ↔ r + ⌈(n : ℚ) * k⌉.toNat < n ∧ assign r ≠ j) := by
  have hlen : s.length = n := by simpa using hs.length_eq
  have hnd : s.Nodup := hs.nodup_iff.mpr (List.nodup_finRange n)
  obtain ⟨-, -, -, hp⟩ := cvPredictions_ok fit assign s k folds p h
  rw [hlen] at hp
  set d := ⌈(n : ℚ) * k⌉.toNat with hd
  have htk : (s.take (n - d)).Nodup := hnd.sublist (List.take_sublist _ _)
  have hmem : ∀ (f : ℕ → Bool) (r : ℕ) (hr : r < s.length),
      s[r] ∈ pick (s.take (n - d)) f ↔ r + d < n ∧ f r = true := by
    intro f r hr
    rw [mem_pick]
    constructor
    · rintro ⟨r', hr', he, hf⟩
      rw [List.getElem_take] at he
      have := (List.Nodup.getElem_inj_iff hnd).mp he
      subst this
      simp only [List.length_take] at hr'
      exact ⟨by omega, hf⟩
    · rintro ⟨h1, h2⟩
      have hr2 : r < (s.take (n - d)).length := by simp only [List.length_take]; omega
      exact ⟨r, hr2, by rw [List.getElem_take], h2⟩
  have hdrop : s[q] ∈ s.drop (n - d) ↔ n ≤ q + d := by
    constructor
    · intro hm
      obtain ⟨r, hr, he⟩ := List.mem_iff_getElem.mp hm
      rw [List.getElem_drop] at he
      have := (List.Nodup.getElem_inj_iff hnd).mp he
      omega
    · intro hle
      rw [List.mem_iff_getElem]
      refine ⟨q - (n - d), by simp only [List.length_drop]; omega, ?_⟩
      rw [List.getElem_drop]
      congr 1
      omega
  constructor
  · intro hkeep
    have hq2 : q < (s.take (n - d)).length := by simp only [List.length_take]; omega
    refine ⟨pick (s.take (n - d)) (fun r => decide (assign r ≠ assign q)), ?_, ?_, ?_⟩
    · rw [hp]
      simp only []
      rw [if_neg (by rw [hdrop]; omega)]
      have := cvLoop_apply fit assign (s.take (n - d)) htk q hq2 folds (hassign q)
      rw [List.getElem_take] at this
      exact this
    · rw [hmem]; simp
    · intro r hr
      rw [hmem]; simp
  · intro hout
    refine ⟨fun j => pick (s.take (n - d)) (fun r => decide (assign r ≠ j)), ?_, ?_⟩
    · rw [hp]
      simp only []
      rw [if_pos (hdrop.mpr hout)]
    · intro j r hr
      simp only []
      rw [hmem]; simp

/-- Three examples in two folds, the last one left out: with a model that predicts the number of training examples
plus the fold number, the kept ones are predicted by the other kept one's model. -/
example : cvPredictions (n := 3) (fun j T _ => (T.length : ℚ) + 10 * j) (fun q => q) [2, 0, 1] (1/3) 2
    = .ok (fun i => if i = 1 then (1 + 11) / 2 else if i = 2 then 1 else 11) := by
  have h : ⌈((3 : ℕ) : ℚ) * (1/3)⌉ = 1 := by norm_num
  unfold cvPredictions
  simp only [List.length_cons, List.length_nil, Nat.zero_add, Nat.reduceAdd]
  rw [if_neg (by norm_num), h]
  simp only [Int.toNat_one, Nat.reduceSub]
  rw [if_neg (by decide)]
  congr 1
  funext i
  revert i
  decide +kernel

/-! ## The search -/

theorem candidate_ok (folds : ℕ) (cv : ℕ → ℚ → Except String (Fin n → ℚ)) (r2 : (Fin n → ℚ) → ℚ) (t : ℕ) (k v : ℚ)
    (h : candidate folds cv r2 t k = .ok v) :
    (⌊(n : ℚ) * (1 - k)⌋ < folds ∧ v = -10 ^ 30) ∨ ∃ preds, cv t k = .ok preds ∧ v = r2 preds := by
  unfold candidate at h
  by_cases hf : ⌊(n : ℚ) * (1 - k)⌋ < (folds : ℤ)
  · rw [if_pos hf] at h
    exact Or.inl ⟨hf, (Except.ok.inj h).symm.trans (by unfold tooFew; norm_num)⟩
  · rw [if_neg hf] at h
    cases hc : cv t k with
    | error e => rw [hc] at h; cases h
    | ok preds => rw [hc] at h; exact Or.inr ⟨preds, rfl, (Except.ok.inj h).symm⟩

theorem linspaceTail_mem (a b : ℚ) (hab : a ≤ b) (size : ℕ) (x : ℚ) (hx : x ∈ linspaceTail a b size) :
    a ≤ x ∧ x ≤ b := by
  unfold linspaceTail at hx
  obtain ⟨j, hj, rfl⟩ := List.mem_map.mp hx
  have hj : (j : ℚ) + 1 ≤ size := by exact_mod_cast List.mem_range.mp hj
  have hs : (0 : ℚ) < (size : ℚ) + 1 := by positivity
  have h1 : 0 ≤ (b - a) * ((j : ℚ) + 1) / ((size : ℚ) + 1) :=
    div_nonneg (mul_nonneg (by linarith) (by positivity)) hs.le
  have h2 : (b - a) * ((j : ℚ) + 1) / ((size : ℚ) + 1) ≤ b - a := by
    rw [div_le_iff₀ hs]
    exact mul_le_mul_of_nonneg_left (by linarith) (by linarith)
  constructor <;> linarith

theorem fineRange_mem (ks : List ℚ) (hks : ks.Pairwise (· ≤ ·)) (i : Fin ks.length) (size : ℕ) (x lo hi : ℚ)
    (hb : ∀ c ∈ ks, lo ≤ c ∧ c ≤ hi) (hx : x ∈ fineRange ks i size) : lo ≤ x ∧ x ≤ hi := by
  rw [List.pairwise_iff_getElem] at hks
  have key : ∀ a b (ha : a < ks.length) (hb' : b < ks.length), a < b → x ∈ linspaceTail ks[a] ks[b] size →
      lo ≤ x ∧ x ≤ hi := by
    intro a b ha hb' hlt hm
    have := linspaceTail_mem _ _ (hks a b ha hb' hlt) size x hm
    have h1 := hb ks[a] (List.getElem_mem ha)
    have h2 := hb ks[b] (List.getElem_mem hb')
    exact ⟨h1.1.trans this.1, this.2.trans h2.2⟩
  unfold fineRange at hx
  rcases List.mem_append.mp hx with h | h
  · by_cases h0 : 0 < i.val
    · rw [dif_pos h0] at h
      exact key _ _ _ _ (by omega) h
    · rw [dif_neg h0] at h; cases h
  · by_cases h0 : i.val + 1 < ks.length
    · rw [dif_pos h0] at h
      exact key _ _ _ _ (by omega) h
    · rw [dif_neg h0] at h; cases h

/-- What a search result says: it comes from an actual candidate, lies between the given fractions, and is at least
as good as every given fraction. -/
def GoodSearch (folds : ℕ) (cv : ℕ → ℚ → Except String (Fin n → ℚ)) (r2 : (Fin n → ℚ) → ℚ) (coarse : List ℚ)
    (k r : ℚ) : Prop :=
  ((⌊(n : ℚ) * (1 - k)⌋ < folds ∧ r = -10 ^ 30) ∨ ∃ t preds, cv t k = .ok preds ∧ r = r2 preds) ∧
  (∀ lo hi, (∀ c ∈ coarse, lo ≤ c ∧ c ≤ hi) → lo ≤ k ∧ k ≤ hi) ∧
  ∀ c ∈ coarse, (⌊(n : ℚ) * (1 - c)⌋ < folds ∧ -10 ^ 30 ≤ r) ∨ ∃ t preds, cv t c = .ok preds ∧ r2 preds ≤ r

theorem mapM_ok_mem {α β : Type} (f : α → Except String β) :
    ∀ (l : List α) (r : List β), l.mapM f = .ok r → ∀ y ∈ r, ∃ x ∈ l, f x = .ok y := by
  intro l
  induction l with
  | nil => intro r h y hy; simp [pure, Except.pure] at h; subst h; cases hy
  | cons a l ih =>
    intro r h y hy
    rw [List.mapM_cons] at h
    cases ha : f a with
    | error e => rw [ha] at h; cases h
    | ok b =>
      rw [ha] at h
      cases hl : l.mapM f with
      | error e => rw [hl] at h; cases h
      | ok bs =>
        rw [hl] at h
        have : r = b :: bs := (Except.ok.inj h).symm
        subst this
        rcases List.mem_cons.mp hy with rfl | hy
        · exact ⟨a, List.mem_cons_self, ha⟩
        · obtain ⟨x, hx, he⟩ := ih bs hl y hy
          exact ⟨x, List.mem_cons_of_mem _ hx, he⟩

theorem searchSorted_good (folds : ℕ) (cv : ℕ → ℚ → Except String (Fin n → ℚ)) (r2 : (Fin n → ℚ) → ℚ) (ks : List ℚ)
    [NeZero ks.length] (hks : ks.Pairwise (· ≤ ·)) (size : ℕ) (k r : ℚ)
    (h : searchSorted folds cv r2 ks size = .ok (k, r)) : GoodSearch folds cv r2 ks k r := by
  unfold searchSorted at h
  cases hc : collect (fun i : Fin ks.length => candidate folds cv r2 i.val ks[i.val]) with
  | error e => rw [hc] at h; cases h
  | ok coarse =>
    rw [hc] at h
    rw [collect_ok_iff] at hc
    have hcand : ∀ i : Fin ks.length, (⌊(n : ℚ) * (1 - ks[i.val])⌋ < folds ∧ coarse i = -10 ^ 30) ∨
        ∃ preds, cv i.val ks[i.val] = .ok preds ∧ coarse i = r2 preds := fun i => candidate_ok _ _ _ _ _ _ (hc i)
    have hall : ∀ r, coarse (argmax coarse) ≤ r → ∀ c ∈ ks, (⌊(n : ℚ) * (1 - c)⌋ < folds ∧ -10 ^ 30 ≤ r) ∨
        ∃ t preds, cv t c = .ok preds ∧ r2 preds ≤ r := by
      intro r hr c hcm
      obtain ⟨i, hi, rfl⟩ := List.mem_iff_getElem.mp hcm
      have hle := (le_argmax coarse ⟨i, hi⟩).trans hr
      rcases hcand ⟨i, hi⟩ with ⟨h1, h2⟩ | ⟨preds, h1, h2⟩
      · exact Or.inl ⟨h1, h2 ▸ hle⟩
      · exact Or.inr ⟨i, preds, h1, h2 ▸ hle⟩
    have hbest : GoodSearch folds cv r2 ks ks[(argmax coarse).val] (coarse (argmax coarse)) := by
      refine ⟨?_, fun lo hi hb => hb _ (List.getElem_mem _), hall _ le_rfl⟩
      rcases hcand (argmax coarse) with h1 | ⟨preds, h1, h2⟩
      · exact Or.inl h1
      · exact Or.inr ⟨_, preds, h1, h2⟩
    simp only [bind, Except.bind, pure, Except.pure] at h
    by_cases hz : size = 0
    · rw [if_pos hz] at h
      have := Except.ok.inj h
      rw [Prod.mk.injEq] at this
      obtain ⟨rfl, rfl⟩ := this
      exact hbest
    · rw [if_neg hz] at h
      split at h
      · cases h
      · rename_i fine hfine
        cases ha : fine.argmax (·.2) with
        | none => rw [ha] at h; cases h
        | some e =>
          rw [ha] at h
          obtain ⟨k', r'⟩ := e
          simp only [] at h
          by_cases hlt : r' < coarse (argmax coarse)
          · rw [if_pos hlt] at h
            have := Except.ok.inj h
            rw [Prod.mk.injEq] at this
            obtain ⟨rfl, rfl⟩ := this
            exact hbest
          · rw [if_neg hlt] at h
            have := Except.ok.inj h
            rw [Prod.mk.injEq] at this
            obtain ⟨rfl, rfl⟩ := this
            obtain ⟨x, hx, he⟩ := mapM_ok_mem _ _ _ hfine _ (List.argmax_mem ha)
            obtain ⟨x, t⟩ := x
            simp only [] at he
            cases hcd : candidate folds cv r2 (ks.length + t) x with
            | error e => rw [hcd] at he; cases he
            | ok v =>
              rw [hcd] at he
              have := Except.ok.inj he
              rw [Prod.mk.injEq] at this
              obtain ⟨rfl, rfl⟩ := this
              refine ⟨?_, ?_, hall _ (not_lt.mp hlt)⟩
              · rcases candidate_ok _ _ _ _ _ _ hcd with h1 | ⟨preds, h1, h2⟩
                · exact Or.inl h1
                · exact Or.inr ⟨_, preds, h1, h2⟩
              · intro lo hi hb
                exact fineRange_mem ks hks _ size _ lo hi hb (List.fst_mem_of_mem_zipIdx hx)

theorem findBestK_good (folds : ℕ) (cv : ℕ → ℚ → Except String (Fin n → ℚ)) (r2 : (Fin n → ℚ) → ℚ) (coarse : List ℚ)
    (size : ℕ) (k r : ℚ) (h : findBestK folds cv r2 coarse size = .ok (k, r)) : GoodSearch folds cv r2 coarse k r := by
  have hperm := List.perm_insertionSort (· ≤ ·) coarse
  have hsort := List.pairwise_insertionSort (· ≤ ·) coarse
  unfold findBestK at h
  have good : ∀ l, coarse.insertionSort (· ≤ ·) = l → GoodSearch folds cv r2 l k r → GoodSearch folds cv r2 coarse k r := by
    rintro l rfl ⟨g1, g2, g3⟩
    exact ⟨g1, fun lo hi hb => g2 lo hi (fun c hc => hb c (hperm.mem_iff.mp hc)),
      fun c hc => g3 c (hperm.mem_iff.mpr hc)⟩
  split at h
  · cases h
  · rename_i k' heq
    refine good _ heq ?_
    by_cases hf : ⌊(n : ℚ) * (1 - k')⌋ < (folds : ℤ)
    · rw [if_pos hf] at h; cases h
    · rw [if_neg hf] at h
      cases hc : cv 0 k' with
      | error e => rw [hc] at h; cases h
      | ok preds =>
        rw [hc] at h
        have := Except.ok.inj h
        rw [Prod.mk.injEq] at this
        obtain ⟨rfl, rfl⟩ := this
        refine ⟨Or.inr ⟨0, preds, hc, rfl⟩, fun lo hi hb => hb _ List.mem_cons_self, ?_⟩
        intro c hcm
        rw [List.mem_singleton] at hcm
        subst hcm
        exact Or.inr ⟨0, preds, hc, le_rfl⟩
  · rename_i k1 k2 rest heq
    refine good _ heq ?_
    rw [heq] at hsort
    exact searchSorted_good folds cv r2 _ hsort size k r h

/-! ## `find_label_issues` -/

theorem findLabelIssues_ok (B : ArgSort ℚ) (A : ArgSort ℝ) (E : Env n κ) (kwargs : κ) (y : Fin n → ℚ)
    (coarse : List ℚ) (size : ℕ) (res : Issues n) (h : findLabelIssues B A E kwargs y coarse size = .ok res) :
    ∃ initial k r med, initialPredictions E kwargs = .ok initial ∧
      findBestK E.folds (searchCv E (B.indices (fun i => |initial i - y i|))) E.r2 coarse size = .ok (k, r) ∧
      res.k = (if r ≤ E.r2 initial then 0 else k) ∧
      cvPredictions (E.fit kwargs) E.assignFinal (B.indices (fun i => |initial i - y i|)) res.k E.folds
        = .ok res.predicted ∧
      npMedian A ((List.finRange n).map
        (adjusted (fun i => ((res.predicted i - y i : ℚ) : ℝ)) (E.uncertainty res.predicted))) = some med ∧
      res.scores = (fun i => Real.exp (-adjusted (fun i => ((res.predicted i - y i : ℚ) : ℝ))
        (E.uncertainty res.predicted) i / max med tiny)) ∧
      res.flags = flag A res.scores res.k := by
  unfold findLabelIssues at h
  cases hi : initialPredictions E kwargs with
  | error e => rw [hi] at h; cases h
  | ok initial =>
    rw [hi] at h
    simp only [bind, Except.bind, pure, Except.pure] at h
    split at h
    · cases h
    · rename_i kr hkr
      obtain ⟨k, r⟩ := kr
      simp only [] at h
      split at h
      · cases h
      · rename_i preds hp
        split at h
        · cases h
        · rename_i scores hs
          have := Except.ok.inj h
          subst this
          unfold qualityScores at hs
          rw [Option.map_eq_some_iff] at hs
          obtain ⟨med, hm, hs⟩ := hs
          exact ⟨initial, k, r, med, rfl, hkr, rfl, hp, hm, hs.symm, rfl⟩

theorem ceil_toNat_le (n : ℕ) (k : ℚ) (h1 : k ≤ 1) : ⌈(n : ℚ) * k⌉.toNat ≤ n := by
  rw [Int.toNat_le, Int.ceil_le]
  push_cast
  calc (n : ℚ) * k ≤ n * 1 := mul_le_mul_of_nonneg_left h1 (Nat.cast_nonneg n)
    _ = n := mul_one _

theorem floor_kept (n : ℕ) (k : ℚ) : ⌊(n : ℚ) * (1 - k)⌋ = (n : ℤ) - ⌈(n : ℚ) * k⌉ := by
  rw [show (n : ℚ) * (1 - k) = ((n : ℤ) : ℚ) + -((n : ℚ) * k) from by push_cast; ring, Int.floor_intCast_add,
    Int.floor_neg]
  ring

/-- **C51.** `find_label_issues` of the regression learner flags exactly `⌈n k⌉` examples, where `k` is the fraction
it stores, and no unflagged example has a lower label quality score than a flagged one. -/
theorem C51_flags_lowest (B : ArgSort ℚ) (A : ArgSort ℝ) (E : Env n κ) (kwargs : κ) (y : Fin n → ℚ)
    (coarse : List ℚ) (size : ℕ) (res : Issues n) (h : findLabelIssues B A E kwargs y coarse size = .ok res) :
    (((List.finRange n).countP res.flags : ℕ) : ℤ) = ⌈(n : ℚ) * res.k⌉ ∧
    ∀ i j, res.flags i = true → res.flags j = false → res.scores i ≤ res.scores j := by
  obtain ⟨initial, k, r, med, -, -, -, hp, -, -, hf⟩ := findLabelIssues_ok B A E kwargs y coarse size res h
  obtain ⟨h0, h1, -, -⟩ := cvPredictions_ok _ _ _ _ _ _ hp
  have hnn : 0 ≤ ⌈(n : ℚ) * res.k⌉ := Int.ceil_nonneg (mul_nonneg (Nat.cast_nonneg n) h0)
  have hnd := A.nodup_indices res.scores
  have hlen := A.length_indices res.scores
  set m := ⌈(n : ℚ) * res.k⌉.toNat with hm
  have hmn : m ≤ n := ceil_toNat_le n res.k h1
  have hfl : ∀ i, res.flags i = decide (i ∈ (A.indices res.scores).take m) := by
    intro i; rw [hf]; rfl
  constructor
  · rw [← Int.toNat_of_nonneg hnn, ← hm, List.countP_eq_length_filter]
    congr 1
    have hpm : ((List.finRange n).filter res.flags).Perm ((A.indices res.scores).take m) := by
      rw [List.perm_ext_iff_of_nodup ((List.nodup_finRange n).filter _) (hnd.sublist (List.take_sublist _ _))]
      intro i
      rw [List.mem_filter, hfl]
      simp
    rw [hpm.length_eq, List.length_take, hlen]
    omega
  · intro i j hi hj
    rw [hfl, decide_eq_true_iff] at hi
    rw [hfl, decide_eq_false_iff_not] at hj
    have hjd : j ∈ (A.indices res.scores).drop m := by
      have : j ∈ A.indices res.scores := A.mem_indices res.scores j
      rw [← List.take_append_drop m (A.indices res.scores)] at this
      exact (List.mem_append.mp this).resolve_left hj
    have hpw := A.pairwise_indices res.scores
    rw [← List.take_append_drop m (A.indices res.scores), List.pairwise_append] at hpw
    exact hpw.2.2 i hi j hjd

/-- **C51.** If no candidate fraction improves the cross-validated score of the untouched data, nothing is flagged. -/
theorem C51_none_if_no_improvement (B : ArgSort ℚ) (A : ArgSort ℝ) (E : Env n κ) (kwargs : κ) (y : Fin n → ℚ)
    (coarse : List ℚ) (size : ℕ) (res : Issues n) (h : findLabelIssues B A E kwargs y coarse size = .ok res)
    (initial : Fin n → ℚ) (hi : initialPredictions E kwargs = .ok initial)
    (hno : ∀ t k preds, searchCv E (B.indices (fun i => |initial i - y i|)) t k = .ok preds →
      E.r2 preds ≤ E.r2 initial) (i : Fin n) : res.flags i = false := by
  obtain ⟨initial', k, r, med, hi', hb, hk, hp, -, -, hf⟩ := findLabelIssues_ok B A E kwargs y coarse size res h
  rw [hi] at hi'
  have := Except.ok.inj hi'
  subst this
  obtain ⟨h1, -, -⟩ := findBestK_good _ _ _ _ _ _ _ hb
  have hk0 : res.k = 0 := by
    rcases h1 with ⟨hfew, -⟩ | ⟨t, preds, hcv, rfl⟩
    · by_cases hr : r ≤ E.r2 initial
      · rw [hk, if_pos hr]
      · rw [if_neg hr] at hk
        obtain ⟨h0, h1, hlen, -⟩ := cvPredictions_ok _ _ _ _ _ _ hp
        exfalso
        rw [← hk, floor_kept] at hfew
        rw [List.length_take, B.length_indices] at hlen
        have hc := ceil_toNat_le n res.k h1
        have hnn : 0 ≤ ⌈(n : ℚ) * res.k⌉ := Int.ceil_nonneg (mul_nonneg (Nat.cast_nonneg n) h0)
        omega
    · rw [hk, if_pos (hno t k preds hcv)]
  rw [hf, hk0]
  simp [flag]

/-- **C51.** If something is flagged, then removing the stored fraction did improve the cross-validated score, it did
so at least as much as each fraction of `coarse_search_range`, and it lies between the smallest and the largest of
them. -/
theorem C51_best_fraction (B : ArgSort ℚ) (A : ArgSort ℝ) (E : Env n κ) (kwargs : κ) (y : Fin n → ℚ)
    (coarse : List ℚ) (size : ℕ) (res : Issues n) (h : findLabelIssues B A E kwargs y coarse size = .ok res)
    (i : Fin n) (hflag : res.flags i = true) :
    ∃ initial t preds, initialPredictions E kwargs = .ok initial ∧
      searchCv E (B.indices (fun i => |initial i - y i|)) t res.k = .ok preds ∧
      E.r2 initial < E.r2 preds ∧
      (∀ lo hi, (∀ c ∈ coarse, lo ≤ c ∧ c ≤ hi) → lo ≤ res.k ∧ res.k ≤ hi) ∧
      ∀ c ∈ coarse, ⌊(n : ℚ) * (1 - c)⌋ < E.folds ∨
        ∃ t' preds', searchCv E (B.indices (fun i => |initial i - y i|)) t' c = .ok preds' ∧
          E.r2 preds' ≤ E.r2 preds := by
  obtain ⟨initial, k, r, med, hi, hb, hk, hp, -, -, hf⟩ := findLabelIssues_ok B A E kwargs y coarse size res h
  obtain ⟨h1, h2, h3⟩ := findBestK_good _ _ _ _ _ _ _ hb
  by_cases hr : r ≤ E.r2 initial
  · rw [if_pos hr] at hk
    rw [hf, hk] at hflag
    simp [flag] at hflag
  · rw [if_neg hr] at hk
    subst hk
    push Not at hr
    rcases h1 with ⟨hfew, -⟩ | ⟨t, preds, hcv, rfl⟩
    · exfalso
      obtain ⟨h0, h1, hlen, -⟩ := cvPredictions_ok _ _ _ _ _ _ hp
      rw [floor_kept] at hfew
      rw [List.length_take, B.length_indices] at hlen
      have hc := ceil_toNat_le n res.k h1
      have hnn : 0 ≤ ⌈(n : ℚ) * res.k⌉ := Int.ceil_nonneg (mul_nonneg (Nat.cast_nonneg n) h0)
      omega
    · refine ⟨initial, t, preds, hi, hcv, hr, h2, ?_⟩
      intro c hc
      rcases h3 c hc with ⟨h4, -⟩ | h4
      · exact Or.inl h4
      · exact Or.inr h4

/-- **C51.** The label quality scores lie in `(0, 1]`, and of two examples with the same uncertainty the one with the
larger residual does not score higher. -/
theorem C51_scores (B : ArgSort ℚ) (A : ArgSort ℝ) (E : Env n κ) (kwargs : κ) (y : Fin n → ℚ)
    (coarse : List ℚ) (size : ℕ) (res : Issues n) (h : findLabelIssues B A E kwargs y coarse size = .ok res) :
    (∀ i, 0 < res.scores i ∧ res.scores i ≤ 1) ∧
    ∀ i j, E.uncertainty res.predicted i = E.uncertainty res.predicted j →
      |res.predicted i - y i| ≤ |res.predicted j - y j| → res.scores j ≤ res.scores i := by
  obtain ⟨initial, k, r, med, -, -, -, -, -, hs, -⟩ := findLabelIssues_ok B A E kwargs y coarse size res h
  have hmed : 0 < max med tiny := lt_max_of_lt_right (by unfold tiny; positivity)
  rw [hs]
  constructor
  · intro i
    refine ⟨Real.exp_pos _, Real.exp_le_one_iff.mpr ?_⟩
    rw [neg_div, neg_nonpos]
    exact div_nonneg (abs_nonneg _) hmed.le
  · intro i j hu hres
    simp only []
    rw [Real.exp_le_exp, neg_div, neg_div, neg_le_neg_iff]
    refine div_le_div_of_nonneg_right ?_ hmed.le
    unfold adjusted
    rw [hu, abs_div, abs_div]
    refine div_le_div_of_nonneg_right ?_ (abs_nonneg _)
    rw [← Rat.cast_abs, ← Rat.cast_abs]
    exact_mod_cast hres

/-- A model predicting the number of its training examples; the score is minus the prediction for the first example. -/
noncomputable def exEnv : Env 4 Bool :=
  ⟨fun _ _ T _ => (T.length : ℚ), false, 2, fun q => q % 2, fun q => q % 2, fun _ q => q % 2,
    fun p => -p 0, fun _ _ => 1⟩

theorem exEnv_initial (kw : Bool) : initialPredictions exEnv kw = .ok (fun _ => 2) := by
  refine ok_of_toOption ?_
  cases kw <;> decide +kernel

theorem exEnv_indices : (stableSort ℚ).indices (fun i : Fin 4 => |(2 : ℚ) - (![0, 0, 0, 10] : Fin 4 → ℚ) i|)
    = [0, 1, 2, 3] := by decide +kernel

theorem exEnv_cv (kw : Bool) : cvPredictions (exEnv.fit kw) (fun q => q % 2) [0, 1, 2, 3] (1/4) 2
    = .ok ![1, 2, 1, 3/2] := by
  refine ok_of_toOption ?_
  cases kw <;> decide +kernel

theorem findLabelIssues_exists [NeZero n] (B : ArgSort ℚ) (A : ArgSort ℝ) (E : Env n κ) (kwargs : κ) (y : Fin n → ℚ)
    (coarse : List ℚ) (size : ℕ) (initial preds : Fin n → ℚ) (k r : ℚ)
    (h1 : initialPredictions E kwargs = .ok initial)
    (h2 : findBestK E.folds (searchCv E (B.indices (fun i => |initial i - y i|))) E.r2 coarse size = .ok (k, r))
    (h3 : cvPredictions (E.fit kwargs) E.assignFinal (B.indices (fun i => |initial i - y i|))
      (if r ≤ E.r2 initial then 0 else k) E.folds = .ok preds) :
    ∃ res, findLabelIssues B A E kwargs y coarse size = .ok res := by
  obtain ⟨med, hmed⟩ := Option.isSome_iff_exists.mp (npMedian_isSome A ((List.finRange n).map
    (adjusted (fun i => ((preds i - y i : ℚ) : ℝ)) (E.uncertainty preds)))
    (by simp only [ne_eq, List.map_eq_nil_iff, List.finRange_eq_nil_iff]; exact NeZero.ne n))
  unfold findLabelIssues
  rw [h1]
  simp only [bind, Except.bind, pure, Except.pure]
  rw [h2]
  simp only []
  rw [h3]
  simp only [qualityScores]
  rw [hmed]
  exact ⟨_, rfl⟩

/-- With four examples and a candidate fraction of one quarter that improves the score, the fraction is kept (so one
example is flagged). -/
theorem exEnv_result (A : ArgSort ℝ) :
    ∃ res, findLabelIssues (stableSort ℚ) A exEnv true ![0, 0, 0, 10] [1/4] 0 = .ok res := by
  refine findLabelIssues_exists _ _ _ _ _ _ _ (fun _ => 2) ![1, 2, 1, 3/2] (1/4) (-1) (exEnv_initial true) ?_ ?_
  · rw [exEnv_indices]
    refine ok_of_toOption ?_
    decide +kernel
  · rw [exEnv_indices, if_neg (by decide +kernel)]
    exact exEnv_cv true

/-! ## Keyword arguments of the model -/

/-- The same as `exEnv`, but without the keyword arguments (`false`) the model always predicts 5. -/
noncomputable def exEnv' : Env 4 Bool :=
  ⟨fun kw _ T _ => if kw then (T.length : ℚ) else 5, false, 2, fun q => q % 2, fun q => q % 2, fun _ q => q % 2,
    fun p => -p 0, fun _ _ => 1⟩

/-- **C76 fails.** The result of `find_label_issues(..., model_kwargs=...)` is not determined by how the model behaves
with these arguments: the search for the fraction trains the model without them (`learn.py:754, 773, 820`).  Two
models that agree when given the arguments lead to different fractions, hence to different flags. -/
theorem C76_not_kwargs_used : ∃ (E E' : Env 4 Bool) (y : Fin 4 → ℚ), E.fit true = E'.fit true ∧
    E.folds = E'.folds ∧ E.assignInitial = E'.assignInitial ∧ E.assignFinal = E'.assignFinal ∧
    E.assignSearch = E'.assignSearch ∧ E.r2 = E'.r2 ∧ E.uncertainty = E'.uncertainty ∧
    ∀ A, ∃ res res', findLabelIssues (stableSort ℚ) A E true y [1/4] 0 = .ok res ∧
      findLabelIssues (stableSort ℚ) A E' true y [1/4] 0 = .ok res' ∧
      (List.finRange 4).countP res.flags = 1 ∧ (List.finRange 4).countP res'.flags = 0 := by
  refine ⟨exEnv, exEnv', ![0, 0, 0, 10], rfl, rfl, rfl, rfl, rfl, rfl, rfl, ?_⟩
  intro A
  have hi' : initialPredictions exEnv' true = .ok (fun _ => 2) := exEnv_initial true
  have hb : findBestK exEnv.folds (searchCv exEnv [0, 1, 2, 3]) exEnv.r2 [1/4] 0 = .ok (1/4, -1) := by
    refine ok_of_toOption ?_
    decide +kernel
  have hb' : findBestK exEnv'.folds (searchCv exEnv' [0, 1, 2, 3]) exEnv'.r2 [1/4] 0 = .ok (1/4, -5) := by
    refine ok_of_toOption ?_
    decide +kernel
  obtain ⟨res, h⟩ := exEnv_result A
  obtain ⟨res', h'⟩ : ∃ res, findLabelIssues (stableSort ℚ) A exEnv' true ![0, 0, 0, 10] [1/4] 0 = .ok res := by
    refine findLabelIssues_exists _ _ _ _ _ _ _ (fun _ => 2) (fun _ => 2) (1/4) (-5) hi' ?_ ?_
    · rw [exEnv_indices]
      exact hb'
    · rw [exEnv_indices, if_pos (by decide +kernel)]
      refine ok_of_toOption ?_
      decide +kernel
  refine ⟨res, res', h, h', ?_⟩
  have hk : res.k = 1/4 := by
    obtain ⟨initial, k, r, med, h1, h2, h3, -⟩ := findLabelIssues_ok _ _ _ _ _ _ _ _ h
    rw [exEnv_initial] at h1
    have := (Except.ok.inj h1).symm
    subst this
    rw [exEnv_indices, hb] at h2
    have := Except.ok.inj h2
    rw [Prod.mk.injEq] at this
    obtain ⟨rfl, rfl⟩ := this
    rw [h3, if_neg (by decide +kernel)]
  have hk' : res'.k = 0 := by
    obtain ⟨initial, k, r, med, h1, h2, h3, -⟩ := findLabelIssues_ok _ _ _ _ _ _ _ _ h'
    rw [hi'] at h1
    have := (Except.ok.inj h1).symm
    subst this
    rw [exEnv_indices, hb'] at h2
    have := Except.ok.inj h2
    rw [Prod.mk.injEq] at this
    obtain ⟨rfl, rfl⟩ := this
    rw [h3, if_pos (by decide +kernel)]
  have c := (C51_flags_lowest _ _ _ _ _ _ _ _ h).1
  have c' := (C51_flags_lowest _ _ _ _ _ _ _ _ h').1
  rw [hk] at c
  rw [hk'] at c'
  norm_num at c c'
  constructor
  · exact_mod_cast c
  · rw [List.countP_eq_zero]
    intro i _
    simpa using c' i

/-- **C76, partial.** Called without keyword arguments, the result depends only on the model without arguments.
Missing: any other arguments, for which the statement is false. -/
theorem C76_no_kwargs_partial (B : ArgSort ℚ) (A : ArgSort ℝ) (E : Env n κ) (fit' : κ → Fit n)
    (hfit : fit' E.noKwargs = E.fit E.noKwargs) (y : Fin n → ℚ) (coarse : List ℚ) (size : ℕ) :
    findLabelIssues B A { E with fit := fit' } E.noKwargs y coarse size =
      findLabelIssues B A E E.noKwargs y coarse size := by
  have h1 : initialPredictions { E with fit := fit' } E.noKwargs = initialPredictions E E.noKwargs := by
    unfold initialPredictions; simp only [hfit]
  have h2 : ∀ s, searchCv { E with fit := fit' } s = searchCv E s := by
    intro s; funext t k; unfold searchCv; simp only [hfit]
  unfold findLabelIssues
  rw [h1]
  simp only [h2, hfit]

/-- **C51.** The scores are on the scale of the data: with the residuals divided by the uncertainties (plus `1e-100`), an
example that lies exactly at their median `med` scores `1/e`, and at least half of the examples score at least that. -/
theorem C51_scale (B : ArgSort ℚ) (A : ArgSort ℝ) (E : Env n κ) (kwargs : κ) (y : Fin n → ℚ)
    (coarse : List ℚ) (size : ℕ) (res : Issues n) (h : findLabelIssues B A E kwargs y coarse size = .ok res) :
    ∃ med, IsMedian ((List.finRange n).map
        (fun i => |((res.predicted i - y i : ℚ) : ℝ) / (E.uncertainty res.predicted i + 1 / 10 ^ 100)|)) med ∧
      ∀ i, res.scores i = Real.exp (-(|((res.predicted i - y i : ℚ) : ℝ) / (E.uncertainty res.predicted i + 1 / 10 ^ 100)| /
        max med (1 / 10 ^ 100))) := by
  obtain ⟨initial, k, r, med, -, -, -, -, hm, hs, -⟩ := findLabelIssues_ok B A E kwargs y coarse size res h
  refine ⟨med, npMedian_isMedian A _ _ hm, fun i => ?_⟩
  rw [hs]
  simp only [neg_div]
  rfl

end Cleanlab.Props
