import Verif.Model.NoiseGeneration
import Verif.Lemmas.Except

/-!
# C52: synthetic label noise
-/

namespace Cleanlab.Props

open Np Cleanlab.Noise

variable {n K : ℕ}

theorem assign_count (y : Fin n → Fin K) (k j : Fin K) :
    ∀ (idx : List (Fin n)) (values : List (Fin K)) (labels : Fin n → Fin K), idx.Nodup → idx.length = values.length →
      (∀ i ∈ idx, y i = k ∧ labels i ≠ j) →
      (Finset.univ.filter (fun i => y i = k ∧ assign labels idx values i = j)).card =
        (Finset.univ.filter (fun i => y i = k ∧ labels i = j)).card + values.count j := by
  intro idx
  induction idx with
  | nil =>
    intro values labels _ hlen _
    have : values = [] := List.length_eq_zero_iff.mp (by simpa using hlen.symm)
    subst this
    simp [assign]
  | cons a idx ih =>
    intro values labels hnd hlen hidx
    cases values with
    | nil => simp at hlen
    | cons v values =>
      rw [List.nodup_cons] at hnd
      have hstep : assign labels (a :: idx) (v :: values) = assign (Function.update labels a v) idx values := rfl
      rw [hstep, ih values _ hnd.2 (by simpa using hlen) ?_]
      · have ha := hidx a List.mem_cons_self
        rw [List.count_cons]
        by_cases hv : v = j
        · subst hv
          have : (Finset.univ.filter (fun i => y i = k ∧ Function.update labels a v i = v)) =
              insert a (Finset.univ.filter (fun i => y i = k ∧ labels i = v)) := by
            ext i
            simp only [Finset.mem_filter, Finset.mem_univ, true_and, Finset.mem_insert]
            by_cases hi : i = a
            · subst hi; simp [ha.1]
            · simp [hi]
          rw [this, Finset.card_insert_of_notMem (by simp [ha.2])]
          simp
          omega
        · have : (Finset.univ.filter (fun i => y i = k ∧ Function.update labels a v i = j)) =
              (Finset.univ.filter (fun i => y i = k ∧ labels i = j)) := by
            ext i
            simp only [Finset.mem_filter, Finset.mem_univ, true_and]
            by_cases hi : i = a
            · subst hi; simp [hv, ha.2]
            · simp [hi]
          rw [this]
          simp [hv]
      · intro i hi
        have := hidx i (List.mem_cons_of_mem _ hi)
        have hne : i ≠ a := fun h => hnd.1 (h ▸ hi)
        rw [Function.update_of_ne hne]
        exact this

theorem assign_not_mem (idx : List (Fin n)) :
    ∀ (values : List (Fin K)) (labels : Fin n → Fin K) (i : Fin n), i ∉ idx → assign labels idx values i = labels i := by
  induction idx with
  | nil => intro values labels i _; rfl
  | cons a idx ih =>
    intro values labels i hi
    cases values with
    | nil => rfl
    | cons v values =>
      have hstep : assign labels (a :: idx) (v :: values) = assign (Function.update labels a v) idx values := rfl
      rw [List.mem_cons, not_or] at hi
      rw [hstep, ih _ _ _ hi.2, Function.update_of_ne hi.1]

theorem newLabels_count (joint : Fin K → Fin K → ℕ) (k j : Fin K) : (newLabels joint k).count j = joint j k := by
  unfold newLabels
  rw [List.count_flatMap]
  have : ∀ l : List (Fin K), l.Nodup →
      ((l.filter (fun j => decide (joint j k ≠ 0))).map
        (List.count j ∘ fun j => List.replicate (joint j k) j)).sum = if j ∈ l then joint j k else 0 := by
    intro l
    induction l with
    | nil => intro _; simp
    | cons a l ih =>
      intro hnd
      rw [List.nodup_cons] at hnd
      have ih := ih hnd.2
      by_cases ha : joint a k ≠ 0
      · rw [List.filter_cons_of_pos (by simpa using ha), List.map_cons, List.sum_cons, ih]
        simp only [Function.comp_apply, List.count_replicate, List.mem_cons]
        by_cases haj : a = j
        · subst haj
          simp [hnd.1]
        · have : ¬ j = a := fun h => haj h.symm
          simp [haj, this]
      · rw [List.filter_cons_of_neg (by simpa using ha), ih]
        push Not at ha
        by_cases haj : j = a
        · subst haj
          simp [hnd.1, ha]
        · simp [haj]
  rw [this _ (List.nodup_finRange K)]
  simp

theorem newLabels_length (joint : Fin K → Fin K → ℕ) (k : Fin K) :
    (newLabels joint k).length = ∑ j, joint j k := by
  rw [← List.sum_toFinset_count_eq_length, ← Finset.sum_subset (Finset.subset_univ (newLabels joint k).toFinset)]
  · exact Finset.sum_congr rfl (fun j _ => newLabels_count joint k j)
  · intro j _ hj
    rw [← newLabels_count joint k j]
    rw [List.mem_toFinset] at hj
    exact List.count_eq_zero_of_not_mem hj

/-- `np.random.choice(l, m, replace=False)`: any `m` distinct entries of `l`. -/
def IsChoice (choose : List (Fin n) → ℕ → List (Fin n)) : Prop :=
  ∀ l m, l.Nodup → m ≤ l.length → (choose l m).length = m ∧ (choose l m).Nodup ∧ ∀ i ∈ choose l m, i ∈ l

theorem flipClass_spec (y : Fin n → Fin K) (joint : Fin K → Fin K → ℕ) (choose : List (Fin n) → ℕ → List (Fin n))
    (hc : IsChoice choose) (labels : Fin n → Fin K) (k : Fin K) (hk : ∀ i, y i = k → labels i = k)
    (hsum : ∑ j, joint j k ≤ classCount y k) :
    (∀ i, y i ≠ k → flipClass y joint choose labels k i = labels i) ∧
    ∀ j, j ≠ k → (Finset.univ.filter (fun i => y i = k ∧ flipClass y joint choose labels k i = j)).card = joint j k := by
  have hidx : ((List.finRange n).filter (fun i => decide (labels i = k) && decide (y i = k))) =
      (List.finRange n).filter (fun i => decide (y i = k)) := by
    refine List.filter_congr (fun i _ => ?_)
    by_cases h : y i = k <;> simp [h, hk]
  have hlen : ((List.finRange n).filter (fun i => decide (y i = k))).length = classCount y k := by
    unfold classCount; rw [List.countP_eq_length_filter]
  have hnone : ∀ j, j ≠ k → (Finset.univ.filter (fun i => y i = k ∧ labels i = j)) = ∅ := by
    intro j hj
    ext i
    simp only [Finset.mem_filter, Finset.mem_univ, true_and, Finset.notMem_empty, iff_false, not_and]
    intro h1 h2
    exact hj (h2.symm.trans (hk i h1))
  unfold flipClass
  rw [hidx]
  split_ifs with h
  · obtain ⟨h1, h2, h3⟩ := hc ((List.finRange n).filter (fun i => decide (y i = k))) (newLabels joint k).length
      ((List.nodup_finRange n).filter _) h.2.2
    have hmem : ∀ i ∈ choose ((List.finRange n).filter (fun i => decide (y i = k))) (newLabels joint k).length, y i = k := by
      intro i hi
      simpa using h3 i hi
    constructor
    · intro i hi
      exact assign_not_mem _ _ _ _ (fun hc => hi (hmem i hc))
    · intro j hj
      rw [assign_count y k j _ _ _ h2 h1 (fun i hi => ⟨hmem i hi, by rw [hk i (hmem i hi)]; exact hj.symm⟩),
        hnone j hj, newLabels_count]
      simp
  · refine ⟨fun i _ => rfl, fun j hj => ?_⟩
    rw [hnone j hj, Finset.card_empty]
    rw [newLabels_length, hlen] at h
    have hz : ∑ j, joint j k = 0 := by
      by_contra hne
      exact h ⟨by omega, hne, hsum⟩
    exact ((Finset.sum_eq_zero_iff.mp hz) j (Finset.mem_univ j)).symm

theorem foldl_flipClass (y : Fin n → Fin K) (joint : Fin K → Fin K → ℕ)
    (choose : Fin K → List (Fin n) → ℕ → List (Fin n)) (hc : ∀ k, IsChoice (choose k))
    (hsum : ∀ k, ∑ j, joint j k ≤ classCount y k) :
    ∀ (ks : List (Fin K)) (labels : Fin n → Fin K), ks.Nodup → (∀ k ∈ ks, ∀ i, y i = k → labels i = k) →
      (∀ i, y i ∉ ks → ks.foldl (fun l k => flipClass y joint (choose k) l k) labels i = labels i) ∧
      ∀ k ∈ ks, ∀ j, j ≠ k → (Finset.univ.filter (fun i => y i = k ∧
        ks.foldl (fun l k => flipClass y joint (choose k) l k) labels i = j)).card = joint j k := by
  intro ks
  induction ks with
  | nil => intro labels _ _; exact ⟨fun _ _ => rfl, fun _ h => by cases h⟩
  | cons k ks ih =>
    intro labels hnd hl
    rw [List.nodup_cons] at hnd
    obtain ⟨h1, h2⟩ := flipClass_spec y joint (choose k) (hc k) labels k (hl k List.mem_cons_self) (hsum k)
    obtain ⟨i1, i2⟩ := ih (flipClass y joint (choose k) labels k) hnd.2 (by
      intro k' hk' i hi
      rw [h1 i (fun h => hnd.1 (by rw [← h, hi]; exact hk'))]
      exact hl k' (List.mem_cons_of_mem _ hk') i hi)
    rw [List.foldl_cons]
    constructor
    · intro i hi
      rw [List.mem_cons, not_or] at hi
      rw [i1 i hi.2, h1 i hi.1]
    · intro k' hk' j hj
      rcases List.mem_cons.mp hk' with rfl | hk'
      · rw [← h2 j hj]
        congr 1
        refine Finset.filter_congr (fun i _ => ?_)
        constructor
        · rintro ⟨ha, hb⟩
          exact ⟨ha, by rw [← hb, i1 i (by rw [ha]; exact hnd.1)]⟩
        · rintro ⟨ha, hb⟩
          exact ⟨ha, by rw [← hb, i1 i (by rw [ha]; exact hnd.1)]⟩
      · exact i2 k' hk' j hj

theorem countJoint_sum (noise : Fin K → Fin K → ℚ) (counts : Fin K → ℕ) (k : Fin K) (h0 : ∀ j, 0 ≤ noise j k)
    (h1 : ∑ j, noise j k = 1) : ∑ j, countJoint noise counts j k ≤ counts k := by
  have : ((∑ j, countJoint noise counts j k : ℕ) : ℚ) ≤ counts k := by
    push_cast
    calc ∑ j, ((countJoint noise counts j k : ℕ) : ℚ) ≤ ∑ j, noise j k * counts k := by
          refine Finset.sum_le_sum (fun j _ => ?_)
          have hnn : 0 ≤ noise j k * (counts k : ℚ) := mul_nonneg (h0 j) (Nat.cast_nonneg _)
          unfold countJoint
          split_ifs
          · simpa using hnn
          · unfold trunc
            rw [if_pos hnn]
            have : ((⌊noise j k * (counts k : ℚ)⌋.toNat : ℕ) : ℚ) = ((⌊noise j k * (counts k : ℚ)⌋ : ℤ) : ℚ) := by
              exact_mod_cast Int.toNat_of_nonneg (Int.floor_nonneg.mpr hnn)
            rw [this]
            exact Int.floor_le _
      _ = counts k := by rw [← Finset.sum_mul, h1, one_mul]
  exact_mod_cast this

/-- **C52.** If every class occurs among the true labels and the columns of the noise matrix are probability
distributions, then for every random choice and all classes `j ≠ k` exactly `⌊noise[j][k] · n_k⌋` of the `n_k` examples
of class `k` get label `j` — so exactly the other examples of the class keep their label. -/
theorem C52_flip_counts (y : Fin n → Fin K) (noise : Fin K → Fin K → ℚ)
    (choose : Fin K → List (Fin n) → ℕ → List (Fin n)) (hc : ∀ k, IsChoice (choose k))
    (hy : Function.Surjective y) (h0 : ∀ j k, 0 ≤ noise j k) (h1 : ∀ k, ∑ j, noise j k = 1) :
    ∃ labels, generateNoisyLabels y noise choose = .ok labels ∧
      ∀ j k, j ≠ k → ((Finset.univ.filter (fun i => y i = k ∧ labels i = j)).card : ℤ) =
        ⌊noise j k * ((Finset.univ.filter (fun i => y i = k)).card : ℚ)⌋ := by
  have hcount : ∀ k, classCount y k = (Finset.univ.filter (fun i => y i = k)).card := by
    intro k
    unfold classCount
    rw [List.countP_eq_length_filter]
    rw [← List.toFinset_card_of_nodup ((List.nodup_finRange n).filter _)]
    congr 1
    ext i
    simp
  have hcols : countsPerColumn y = .ok (classCount y) := by
    unfold countsPerColumn
    simp only []
    rw [if_pos]
    have : (List.finRange K).filter (fun k => decide (classCount y k ≠ 0)) = List.finRange K := by
      rw [List.filter_eq_self]
      intro k _
      obtain ⟨i, hi⟩ := hy k
      rw [hcount]
      simp only [ne_eq, Finset.card_eq_zero, decide_not, Bool.not_eq_eq_eq_not, Bool.not_true, decide_eq_false_iff_not]
      intro h
      have : i ∈ (Finset.univ.filter (fun i => y i = k)) := by simp [hi]
      rw [h] at this
      cases this
    rw [this, List.length_finRange]
  obtain ⟨-, h2⟩ := foldl_flipClass y (countJoint noise (classCount y)) choose hc
    (fun k => countJoint_sum noise _ k (fun j => h0 j k) (h1 k)) (List.finRange K) y (List.nodup_finRange K)
    (fun k _ i hi => hi)
  refine ⟨_, by unfold generateNoisyLabels; rw [hcols]; rfl, ?_⟩
  intro j k hj
  rw [h2 k (List.mem_finRange k) j hj, ← hcount]
  have hnn : 0 ≤ noise j k * (classCount y k : ℚ) := mul_nonneg (h0 j k) (Nat.cast_nonneg _)
  unfold countJoint trunc
  rw [if_neg hj, if_pos hnn]
  exact Int.toNat_of_nonneg (Int.floor_nonneg.mpr hnn)

/-- The first `m` entries are an admissible choice. -/
theorem isChoice_take : IsChoice (n := n) (fun l m => l.take m) := by
  intro l m hnd hm
  exact ⟨by simpa using hm, hnd.sublist (List.take_sublist _ _), fun i hi => List.mem_of_mem_take hi⟩

/-- Five examples, 40 % of class 0 should become 1 and half of class 1 should become 0: one label of each is
flipped. -/
example : generateNoisyLabels (n := 5) (K := 2) ![0, 0, 0, 1, 1] ![![3/5, 1/2], ![2/5, 1/2]] (fun _ l m => l.take m)
    = .ok ![1, 0, 0, 0, 1] := by
  refine ok_of_toOption ?_
  decide +kernel

/-- **C52.** The requirement that all classes occur (as documented) is needed: with classes 0 and 1 of three the
function raises. -/
theorem C52_absent_class_raises : ∃ msg, ∀ choose,
    generateNoisyLabels (n := 2) (K := 3) ![0, 1] ![![1, 0, 0], ![0, 1, 0], ![0, 0, 1]] choose = .error msg := by
  refine ⟨"operands could not be broadcast together", fun choose => ?_⟩
  unfold generateNoisyLabels
  have : countsPerColumn (n := 2) (K := 3) ![0, 1] = .error "operands could not be broadcast together" := by
    unfold countsPerColumn
    simp only []
    rw [if_neg (by decide +kernel), if_neg (by decide +kernel)]
  rw [this]
  rfl

end Cleanlab.Props
