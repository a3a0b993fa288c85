import Verif.Props.Balls
import Verif.Props.NoisyLabels
import Mathlib.Tactic.FinCases

/-!
# C79: noise matrices with a given trace
-/

namespace Cleanlab.Props

open Np Cleanlab.Noise

variable {n K : ℕ}

/-! ### What the random numbers satisfy -/

/-- A draw from a Dirichlet distribution. -/
def IsDraw (d : Fin n → ℚ) : Prop := (∀ i, 0 ≤ d i) ∧ ∑ i, d i = 1

/-- Uniform random numbers. -/
def IsUnif (u : ℕ → ℚ) : Prop := ∀ t, 0 ≤ u t ∧ u t ≤ 1

/-- Admissible random draws of one attempt. -/
structure DrawsOk (D : Draws K) : Prop where
  diag : IsDraw D.diag
  diagU : IsUnif D.diagU
  diagU' : IsUnif D.diagU'
  balls : ∀ m, m ≠ 0 → IsDraw (D.balls m)
  ballsU : IsUnif D.ballsU
  ballsU' : IsUnif D.ballsU'
  col : ∀ c m, m ≠ 0 → IsDraw (D.col c m)
  colU : ∀ c, IsUnif (D.colU c)
  colU' : ∀ c, IsUnif (D.colU' c)
  choose : ∀ c, IsChoice (D.choose c)

/-! ### Returned probabilities -/

theorem randProbs_value [NeZero n] (m maxP minP : ℚ) (d : Fin n → ℚ) (u u' : ℕ → ℚ) (fuel : ℕ) (r : Fin n → ℚ)
    (h : randProbs m maxP minP d u u' fuel = .value r) :
    m / n ≤ maxP + eps ∧ minP ≤ (m + eps) / n ∧
    ∃ r1, capLoop maxP u fuel 0 (fun i => d i * m) = some r1 ∧ raiseLoop minP u' fuel 0 r1 = some r := by
  unfold randProbs at h
  split_ifs at h with h1 h2
  push Not at h1 h2
  refine ⟨h1, h2, ?_⟩
  cases hc : capLoop maxP u fuel 0 (fun i => d i * m) with
  | none => rw [hc] at h; cases h
  | some r1 =>
    rw [hc] at h
    simp only [] at h
    cases hr : raiseLoop minP u' fuel 0 r1 with
    | none => rw [hr] at h; cases h
    | some r2 =>
      rw [hr] at h
      cases h
      exact ⟨r1, rfl, hr⟩

theorem randProbs_spec [NeZero n] (m maxP minP : ℚ) (d : Fin n → ℚ) (hd : IsDraw d) (u u' : ℕ → ℚ) (hu : IsUnif u)
    (hu' : IsUnif u') (fuel : ℕ) (r : Fin n → ℚ) (hmax : m ≤ n * maxP) (hmin : n * minP ≤ m)
    (h : randProbs m maxP minP d u u' fuel = .value r) :
    ∑ i, r i = m ∧ (∀ i, minP - eps ≤ r i ∧ r i ≤ maxP + eps) ∧ (0 ≤ m → ∀ i, 0 ≤ r i) := by
  obtain ⟨-, -, r1, h1, h2⟩ := randProbs_value m maxP minP d u u' fuel r h
  have hs : ∑ i, d i * m = m := by rw [← Finset.sum_mul, hd.2, one_mul]
  obtain ⟨s1, b1, lo1, -⟩ := capLoop_spec maxP u hu fuel 0 _ r1 (by rw [hs]; exact hmax) h1
  obtain ⟨s2, b2, b3, lo2⟩ := raiseLoop_spec minP u' hu' fuel 0 r1 r (by rw [s1, hs]; exact hmin) h2
  exact ⟨by rw [s2, s1, hs], fun i => ⟨b2 i, b3 _ b1 i⟩,
    fun hm => lo2 0 (lo1 0 (fun i => mul_nonneg (hd.1 i) hm))⟩

theorem capLoop_stop [NeZero n] (M : ℚ) (u : ℕ → ℚ) (fuel t : ℕ) (r r' : Fin n → ℚ) (hb : ∀ i, r i ≤ M + eps)
    (h : capLoop M u fuel t r = some r') : r' = r := by
  cases fuel with
  | zero => cases h
  | succ f =>
    unfold capLoop at h
    rw [if_neg (not_lt.mpr (hb _))] at h
    exact (Option.some.inj h).symm

theorem raiseLoop_stop [NeZero n] (m : ℚ) (u : ℕ → ℚ) (fuel t : ℕ) (r r' : Fin n → ℚ) (hb : ∀ i, m - eps ≤ r i)
    (h : raiseLoop m u fuel t r = some r') : r' = r := by
  cases fuel with
  | zero => cases h
  | succ f =>
    unfold raiseLoop at h
    rw [if_neg (not_lt.mpr (hb _))] at h
    exact (Option.some.inj h).symm

/-- The rates of a column: the numerical tolerance of the checks does no harm when `min_noise_rate = 0` and
`max_noise_rate ≥ 1/2`. -/
theorem randProbs_column [NeZero n] (m maxP : ℚ) (d : Fin n → ℚ) (hd : IsDraw d) (u u' : ℕ → ℚ) (hu : IsUnif u)
    (hu' : IsUnif u') (fuel : ℕ) (r : Fin n → ℚ) (hmax : 1 / 2 ≤ maxP) (h0 : -eps ≤ m) (h1 : m ≤ 1)
    (h : randProbs m maxP 0 d u u' fuel = .value r) :
    ∑ i, r i = m ∧ ∀ i, -eps ≤ r i ∧ r i ≤ maxP + eps := by
  have heps : (0 : ℚ) < eps := by norm_num [eps]
  have hn : 1 ≤ n := Nat.pos_of_ne_zero (NeZero.ne n)
  have hs : ∑ i, d i * m = m := by rw [← Finset.sum_mul, hd.2, one_mul]
  have hd1 : ∀ i, d i ≤ 1 := fun i => by
    rw [← hd.2]; exact Finset.single_le_sum (fun j _ => hd.1 j) (Finset.mem_univ i)
  have stop : (∀ i, d i * m ≤ maxP + eps) → (∀ i, -eps ≤ d i * m) →
      ∑ i, r i = m ∧ ∀ i, -eps ≤ r i ∧ r i ≤ maxP + eps := by
    intro hb1 hb2
    obtain ⟨-, -, r1, e1, e2⟩ := randProbs_value m maxP 0 d u u' fuel r h
    have := capLoop_stop maxP u fuel 0 _ r1 hb1 e1
    subst this
    have := raiseLoop_stop 0 u' fuel 0 _ r (fun i => by have := hb2 i; linarith) e2
    subst this
    exact ⟨hs, fun i => ⟨hb2 i, hb1 i⟩⟩
  rcases lt_or_ge m 0 with hm | hm
  · refine stop (fun i => ?_) (fun i => ?_)
    · have : d i * m ≤ 0 := mul_nonpos_of_nonneg_of_nonpos (hd.1 i) hm.le
      linarith
    · have := hd1 i
      nlinarith [hd.1 i]
  · by_cases h2 : 2 ≤ n
    · have hn2 : (2 : ℚ) ≤ n := by exact_mod_cast h2
      obtain ⟨a, b, -⟩ := randProbs_spec m maxP 0 d hd u u' hu hu' fuel r (by nlinarith) (by linarith) h
      exact ⟨a, fun i => ⟨by have := (b i).1; linarith, (b i).2⟩⟩
    · obtain ⟨e, -, -⟩ := randProbs_value m maxP 0 d u u' fuel r h
      have hn1 : (n : ℚ) = 1 := by exact_mod_cast (by omega : n = 1)
      rw [hn1, div_one] at e
      refine stop (fun i => ?_) (fun i => ?_)
      · have := mul_le_mul_of_nonneg_right (hd1 i) hm
        linarith
      · have := mul_nonneg (hd.1 i) hm
        linarith

/-! ### Zeros per column -/

theorem distributeBalls_le [NeZero n] (N maxB : ℕ) (hN : N < 500000) (d : Fin n → ℚ) (hd : IsDraw d) (u u' : ℕ → ℚ)
    (hu : IsUnif u) (hu' : IsUnif u') (fuel : ℕ) (arr : Fin n → ℤ)
    (h : distributeBalls N (some maxB) (some 0) d u u' fuel = .value arr) (i : Fin n) : 0 ≤ arr i ∧ arr i ≤ maxB := by
  have hnn : 0 < n := Nat.pos_of_ne_zero (NeZero.ne n)
  have hn : (0 : ℚ) < n := by exact_mod_cast hnn
  unfold distributeBalls at h
  by_cases h0 : N = 0
  · rw [if_pos h0] at h
    cases h
    simp
  · rw [if_neg h0] at h
    have hzero : min (((0 : ℕ)) : ℚ) ((N : ℚ) / n) = 0 := by
      rw [Nat.cast_zero]; exact min_eq_left (by positivity)
    simp only [hzero, zero_div] at h
    -- the number of balls actually placed
    obtain ⟨N', hN', hle, hub⟩ : ∃ N' : ℕ, (if ((min maxB N : ℕ) : ℚ) < (N : ℚ) / n then min maxB N * n else N) = N' ∧
        N' ≤ N ∧ N' ≤ n * min maxB N := by
      by_cases hc : ((min maxB N : ℕ) : ℚ) < (N : ℚ) / n
      · refine ⟨_, if_pos hc, ?_, by rw [Nat.mul_comm]⟩
        rw [lt_div_iff₀ hn] at hc
        exact_mod_cast hc.le
      · refine ⟨_, if_neg hc, le_rfl, ?_⟩
        push Not at hc
        rw [div_le_iff₀ hn] at hc
        have : (N : ℚ) ≤ ((n * min maxB N : ℕ) : ℚ) := by rw [Nat.cast_mul]; linarith
        exact_mod_cast this
    rw [hN'] at h
    by_cases h0' : N' = 0
    · rw [if_pos h0'] at h; cases h
    · rw [if_neg h0'] at h
      have hNq : (0 : ℚ) < N' := by exact_mod_cast Nat.pos_of_ne_zero h0'
      have hubq : (N' : ℚ) ≤ n * ((min maxB N : ℕ) : ℚ) := by exact_mod_cast hub
      split at h
      · cases h
      · cases h
      · rename_i r hr
        cases h
        obtain ⟨-, hb, hpos⟩ := randProbs_spec 1 _ 0 d hd u u' hu hu' fuel r (by
          rw [mul_div_assoc', le_div_iff₀ hNq]; linarith) (by norm_num) hr
        have hbound : ∀ i, (0 : ℤ) ≤ rint (r i * N') ∧ rint (r i * N') ≤ (min maxB N : ℕ) := by
          intro i
          have he : eps * N' < 1 / 2 := by
            have : (N' : ℚ) < 500000 := by exact_mod_cast hle.trans_lt hN
            unfold eps; linarith
          have h1 : 0 ≤ r i * N' := mul_nonneg (hpos zero_le_one i) hNq.le
          have h2 : r i * N' ≤ ((min maxB N : ℕ) : ℚ) + eps * N' := by
            have := mul_le_mul_of_nonneg_right (hb i).2 hNq.le
            rw [add_mul, div_mul_cancel₀ _ hNq.ne'] at this
            exact this
          have h3 := sub_rint_le (r i * N')
          have h4 := rint_sub_le (r i * N')
          constructor
          · have : ((0 : ℤ) : ℚ) < ((rint (r i * N') + 1 : ℤ) : ℚ) := by push_cast; linarith
            have := Int.cast_lt.mp this
            omega
          · have : ((rint (r i * N') : ℤ) : ℚ) < (((min maxB N : ℕ) : ℤ) + 1 : ℤ) := by push_cast at *; linarith
            have := Int.cast_lt.mp this
            omega
        have hc := (correct_spec (N' : ℤ) 0 ((min maxB N : ℕ) : ℤ) (by simp) (by exact_mod_cast hub)
          (fun i => rint (r i * N')) hbound).2 i
        have h5 : ((min maxB N : ℕ) : ℤ) ≤ maxB := by exact_mod_cast min_le_left _ _
        exact ⟨hc.1, by omega⟩

/-! ### Columns -/

theorem foldl_update_sum : ∀ (rows : List (Fin K)) (rates : List ℚ) (v : Fin K → ℚ), rows.Nodup →
    rows.length = rates.length → (∀ i ∈ rows, v i = 0) →
    ∑ i, (rows.zip rates).foldl (fun v e => Function.update v e.1 e.2) v i = ∑ i, v i + rates.sum := by
  intro rows
  induction rows with
  | nil =>
    intro rates v _ hlen _
    have : rates = [] := List.length_eq_zero_iff.mp (by simpa using hlen.symm)
    subst this
    simp
  | cons a rows ih =>
    intro rates v hnd hlen hv
    cases rates with
    | nil => simp at hlen
    | cons x rates =>
      rw [List.nodup_cons] at hnd
      rw [List.zip_cons_cons, List.foldl_cons, ih rates _ hnd.2 (by simpa using hlen), sum_update_eq, List.sum_cons,
        hv a List.mem_cons_self]
      · ring
      · intro i hi
        have hne : i ≠ a := fun h => hnd.1 (h ▸ hi)
        rw [Function.update_of_ne hne]
        exact hv i (List.mem_cons_of_mem _ hi)

theorem foldl_update_value : ∀ (l : List (Fin K × ℚ)) (v : Fin K → ℚ) (i : Fin K),
    (l.foldl (fun v e => Function.update v e.1 e.2) v i = v i) ∨
    ∃ x, (i, x) ∈ l ∧ l.foldl (fun v e => Function.update v e.1 e.2) v i = x := by
  intro l
  induction l with
  | nil => intro v i; exact Or.inl rfl
  | cons e l ih =>
    intro v i
    rw [List.foldl_cons]
    rcases ih (Function.update v e.1 e.2) i with h | ⟨x, hx, h⟩
    · by_cases hi : i = e.1
      · right
        refine ⟨e.2, ?_, by rw [h, hi, Function.update_self]⟩
        rw [hi]; exact List.mem_cons_self
      · left; rw [h, Function.update_of_ne hi]
    · exact Or.inr ⟨x, List.mem_cons_of_mem _ hx, h⟩

theorem fillColumn_spec (c : Fin K) (d : ℚ) (rows : List (Fin K)) (rates : List ℚ) (hnd : rows.Nodup)
    (hc : c ∉ rows) (hlen : rows.length = rates.length) :
    ∑ row, fillColumn c d rows rates row = d + rates.sum ∧ fillColumn c d rows rates c = d ∧
    ∀ row, row ≠ c → fillColumn c d rows rates row = 0 ∨ fillColumn c d rows rates row ∈ rates := by
  unfold fillColumn
  refine ⟨?_, ?_, ?_⟩
  · rw [foldl_update_sum rows rates.reverse _ hnd (by simpa using hlen), List.sum_reverse]
    · congr 1
      rw [Finset.sum_ite_eq' Finset.univ c]
      simp
    · intro i hi
      have hne : i ≠ c := fun h => hc (h ▸ hi)
      simp [hne]
  · rcases foldl_update_value (rows.zip rates.reverse) (fun row => if row = c then d else 0) c with h | ⟨x, hx, -⟩
    · rw [h, if_pos rfl]
    · exact absurd (List.of_mem_zip hx).1 hc
  · intro row hrow
    rcases foldl_update_value (rows.zip rates.reverse) (fun row => if row = c then d else 0) row with h | ⟨x, hx, h⟩
    · left; rw [h, if_neg hrow]
    · right; rw [h]; simpa using (List.of_mem_zip hx).2

theorem columns_value {m : ℕ} (f : Fin m → Outcome (Fin K → ℚ)) (r : Fin m → Fin K → ℚ) (h : columns f = .value r) :
    ∀ c, f c = .value (r c) := by
  induction m with
  | zero => intro c; exact c.elim0
  | succ m ih =>
    unfold columns at h
    cases h0 : f 0 with
    | raised msg => rw [h0] at h; cases h
    | running => rw [h0] at h; cases h
    | value v =>
      rw [h0] at h
      simp only [] at h
      cases hr : columns (fun c => f c.succ) with
      | raised msg => rw [hr] at h; cases h
      | running => rw [hr] at h; cases h
      | value r' =>
        rw [hr] at h
        cases h
        intro c
        cases c using Fin.cases with
        | zero => exact h0
        | succ c => exact ih _ r' hr c

/-- The arguments for which the numerical tolerance of the helper function does not matter (the defaults satisfy this
for every feasible trace). -/
structure ArgsOk (K : ℕ) (a : TraceArgs) : Prop where
  trace_nonneg : 0 ≤ a.trace
  trace_le : a.trace ≤ K * a.maxTrace
  le_trace : K * a.minTrace ≤ a.trace
  maxTrace : a.maxTrace ≤ 1
  minNoise : a.minNoise = 0
  maxNoise : 1 / 2 ≤ a.maxNoise
  frac0 : 0 ≤ a.fracZero
  frac1 : a.fracZero ≤ 1

/-- A noise matrix as asked for: the diagonal has the given sum and bounds, the columns sum to 1, the noise rates have
the given bounds (all bounds up to the numerical tolerance). -/
structure GoodMatrix (a : TraceArgs) (M : Fin K → Fin K → ℚ) : Prop where
  trace : ∑ i, M i i = a.trace
  columns : ∀ c, ∑ row, M row c = 1
  diag : ∀ i, a.minTrace - 1 / 10 ^ 6 ≤ M i i ∧ M i i ≤ a.maxTrace + 1 / 10 ^ 6
  noise : ∀ i j, i ≠ j → a.minNoise - 1 / 10 ^ 6 ≤ M i j ∧ M i j ≤ a.maxNoise + 1 / 10 ^ 6

theorem zerosPerCol_spec (a : TraceArgs) (ha : ArgsOk K a) (D : Draws K) (hD : DrawsOk D) (hK : 2 < K) (hK' : K ≤ 707)
    (diag : Fin K → ℚ) (fuel : ℕ) (zeros : Fin (noisyCols diag).length → ℤ)
    (h : zerosPerCol a D diag fuel = .value zeros) (i : Fin (noisyCols diag).length) :
    0 ≤ zeros i ∧ zeros i ≤ (K : ℤ) - 2 := by
  unfold zerosPerCol at h
  simp only [] at h
  by_cases h0 : (noisyCols diag).length = 0
  · exact absurd i.isLt (by omega)
  · rw [dif_neg h0] at h
    have : NeZero (noisyCols diag).length := ⟨h0⟩
    have hlen : (noisyCols diag).length ≤ K := by
      unfold noisyCols
      exact (List.length_filter_le _ _).trans (by simp)
    have hkk : (K : ℚ) * (K - 1) ≤ 499142 := by
      have h1 : (K : ℚ) ≤ 707 := by exact_mod_cast hK'
      have h2 : (2 : ℚ) < K := by exact_mod_cast hK
      nlinarith
    have hkpos : 0 ≤ (K : ℚ) * (K - 1) := by
      have h2 : (2 : ℚ) < K := by exact_mod_cast hK
      nlinarith
    have hN : (trunc ((K : ℚ) * (K - 1) * a.fracZero) -
        ((K : ℤ) - (noisyCols diag).length) * ((K : ℤ) - 1)).toNat < 500000 := by
      have h1 : trunc ((K : ℚ) * (K - 1) * a.fracZero) ≤ 499142 := by
        unfold trunc
        rw [if_pos (mul_nonneg hkpos ha.frac0)]
        have : (⌊(K : ℚ) * (K - 1) * a.fracZero⌋ : ℚ) ≤ ((499142 : ℤ) : ℚ) := by
          refine (Int.floor_le _).trans ?_
          have := mul_le_of_le_one_right hkpos ha.frac1
          push_cast
          linarith
        exact_mod_cast this
      have h2 : 0 ≤ ((K : ℤ) - (noisyCols diag).length) * ((K : ℤ) - 1) := mul_nonneg (by omega) (by omega)
      omega
    have := distributeBalls_le _ (K - 2) hN (D.balls _) (hD.balls _ h0) D.ballsU D.ballsU' hD.ballsU hD.ballsU' fuel zeros
      h i
    refine ⟨this.1, ?_⟩
    have h2 := this.2
    push_cast [Nat.cast_sub (by omega : 2 ≤ K)] at h2
    exact h2

theorem length_filter_ne (c : Fin K) : ((List.finRange K).filter (fun r => decide (r ≠ c))).length = K - 1 := by
  have h1 : ((List.finRange K).filter (fun r => decide (r ≠ c))) = (List.finRange K).erase c := by
    rw [(List.nodup_finRange K).erase_eq_filter]
    refine List.filter_congr (fun r _ => ?_)
    by_cases h : r = c <;> simp [h]
  rw [h1, List.length_erase_of_mem (List.mem_finRange c), List.length_finRange]

theorem column_spec (a : TraceArgs) (ha : ArgsOk K a) (D : Draws K) (hD : DrawsOk D) (hK : 2 < K)
    (diag : Fin K → ℚ) (hd0 : ∀ i, 0 ≤ diag i) (hd1 : ∀ i, diag i ≤ 1 + eps) (fuel : ℕ)
    (zeros : Fin (noisyCols diag).length → ℤ) (hz : ∀ i, 0 ≤ zeros i ∧ zeros i ≤ (K : ℤ) - 2) (c : Fin K)
    (v : Fin K → ℚ) (h : column a D diag zeros c fuel = .value v) :
    ∑ row, v row = 1 ∧ v c = diag c ∧ ∀ row, row ≠ c → -eps ≤ v row ∧ v row ≤ a.maxNoise + eps := by
  have heps : (0 : ℚ) < eps := by norm_num [eps]
  have hmn := ha.maxNoise
  unfold column at h
  split at h
  · rename_i hidx
    simp only [] at h
    have hz := hz ⟨_, hidx⟩
    set num := ((K : ℤ) - 1 - zeros ⟨(noisyCols diag).idxOf c, hidx⟩).toNat with hnum
    have hnum0 : num ≠ 0 := by omega
    have hnumle : num ≤ K - 1 := by omega
    unfold colRates at h
    rw [dif_neg hnum0] at h
    have : NeZero num := ⟨hnum0⟩
    cases hr : randProbs (1 - diag c) a.maxNoise a.minNoise (D.col c num) (D.colU c) (D.colU' c) fuel with
    | raised msg => rw [hr] at h; cases h
    | running => rw [hr] at h; cases h
    | value r =>
      rw [hr] at h
      cases h
      rw [ha.minNoise] at hr
      obtain ⟨hs, hb⟩ := randProbs_column (1 - diag c) a.maxNoise _ (hD.col c num hnum0) _ _ (hD.colU c) (hD.colU' c) fuel
        r ha.maxNoise (by have := hd1 c; linarith) (by have := hd0 c; linarith) hr
      obtain ⟨c1, c2, c3⟩ := hD.choose c ((List.finRange K).filter (fun r => decide (r ≠ c))) num
        ((List.nodup_finRange K).filter _) (by rw [length_filter_ne]; exact hnumle)
      obtain ⟨f1, f2, f3⟩ := fillColumn_spec c (diag c)
        (D.choose c ((List.finRange K).filter (fun r => decide (r ≠ c))) num) (List.ofFn r) c2
        (fun hm => by have := c3 c hm; simp at this) (by rw [c1, List.length_ofFn])
      refine ⟨?_, f2, ?_⟩
      · rw [f1, List.sum_ofFn, hs]; ring
      · intro row hrow
        rcases f3 row hrow with h | h
        · rw [h]; constructor <;> linarith
        · obtain ⟨i, hi⟩ := (List.mem_ofFn' _ _).mp h
          rw [← hi]; exact hb i
  · rename_i hidx
    cases h
    have hc : diag c = 1 := by
      by_contra hne
      exact hidx (List.idxOf_lt_length_iff.mpr (by unfold noisyCols; simp [hne]))
    refine ⟨?_, by simp, ?_⟩
    · rw [Finset.sum_ite_eq' Finset.univ c]
      simp [hc]
    · intro row hrow
      simp only [if_neg hrow]
      constructor <;> linarith

theorem attempt_spec [NeZero K] (a : TraceArgs) (ha : ArgsOk K a) (D : Draws K) (hD : DrawsOk D) (hK : 2 < K)
    (hK' : K ≤ 707) (fuel : ℕ) (M : Fin K → Fin K → ℚ) (h : attempt a D fuel = .value M) : GoodMatrix a M := by
  unfold attempt at h
  split at h
  · cases h
  · cases h
  · rename_i diag hdiag
    obtain ⟨hs, hb, hpos⟩ := randProbs_spec a.trace a.maxTrace a.minTrace D.diag hD.diag D.diagU D.diagU' hD.diagU
      hD.diagU' fuel diag ha.trace_le ha.le_trace hdiag
    split at h
    · cases h
    · cases h
    · rename_i zeros hzeros
      split at h
      · cases h
      · cases h
      · rename_i cols hcols
        cases h
        have hcol := fun c => column_spec a ha D hD hK diag (hpos ha.trace_nonneg)
          (fun i => (hb i).2.trans (by have := ha.maxTrace; linarith)) fuel zeros
          (zerosPerCol_spec a ha D hD hK hK' diag fuel zeros hzeros) c (cols c) (columns_value _ _ hcols c)
        refine ⟨?_, fun c => (hcol c).1, fun i => ?_, fun i j hij => ?_⟩
        · rw [← hs]
          exact Finset.sum_congr rfl (fun i _ => (hcol i).2.1)
        · rw [(hcol i).2.1]; exact hb i
        · rw [ha.minNoise, zero_sub]
          exact (hcol j).2.2 i hij

theorem tries_spec [NeZero K] (a : TraceArgs) (ha : ArgsOk K a) (valid : Bool) (py : Option (Fin K → ℚ))
    (D : ℕ → Draws K) (hD : ∀ z, DrawsOk (D z)) (hK : 2 < K) (hK' : K ≤ 707) (fuel : ℕ) (M : Fin K → Fin K → ℚ) :
    ∀ left z, tries a valid py D fuel left z = .value (some M) →
      GoodMatrix a M ∧ (valid = true → ∃ p ∈ py, noiseMatrixIsValid M p = true) := by
  intro left
  induction left with
  | zero => intro z h; cases h
  | succ left ih =>
    intro z h
    unfold tries at h
    split at h
    · cases h
    · cases h
    · rename_i m hm
      by_cases hv : valid = false ∨ ∃ p ∈ py, noiseMatrixIsValid m p = true
      · rw [if_pos hv] at h
        cases h
        refine ⟨attempt_spec a ha (D z) (hD z) hK hK' fuel M hm, fun hval => ?_⟩
        rcases hv with hv | hv
        · rw [hval] at hv; cases hv
        · exact hv
      · rw [if_neg hv] at h
        exact ih _ h

/-- **C79.** For three to 707 classes, whatever the random draws: a matrix returned by
`generate_noise_matrix_from_trace` has the requested trace, columns summing to 1, and diagonal entries and noise rates
within the requested bounds; with `valid_noise_matrix=True` the learnability condition
`p(label = k) p(true_label = k) < p(label = k, true_label = k)` holds for every class and the joint distribution of labels and
classes sums to 1, up to 1e-6. -/
theorem C79_from_trace (hK : 2 < K) (hK' : K ≤ 707) (a : TraceArgs) (ha : ArgsOk K a) (valid : Bool)
    (py : Option (Fin K → ℚ)) (maxIter : ℕ) (D : ℕ → Draws K) (hD : ∀ z, DrawsOk (D z)) (coin : Bool) (fuel : ℕ)
    (M : Fin K → Fin K → ℚ) (h : fromTrace K a valid py maxIter D coin fuel = .value (some M)) :
    GoodMatrix a M ∧ (valid = true → ∃ p, py = some p ∧
      (∀ k, (∑ j, M k j * p j) * p k < M k k * p k) ∧ |(∑ i, ∑ j, M i j * p j) - 1| < 1 / 1000000) := by
  unfold fromTrace at h
  split_ifs at h with h1 h2 h3 h4 h5
  · cases h
  · omega
  · have : NeZero K := ⟨by omega⟩
    obtain ⟨g, hv⟩ := tries_spec a ha valid py D hD hK hK' fuel M maxIter 0 h
    refine ⟨g, fun hval => ?_⟩
    obtain ⟨p, hp, hpv⟩ := hv hval
    unfold noiseMatrixIsValid at hpv
    simp only [] at hpv
    split_ifs at hpv with hsum
    rw [List.all_eq_true] at hpv
    exact ⟨p, hp, fun k => by simpa using hpv k (List.mem_finRange k), lt_of_lt_of_eq hsum (by norm_num [eps])⟩

/-- **C79.** For two classes and a trace between 1 and 2 the returned matrix has the requested trace and columns
summing to 1, and it satisfies the learnability condition for every class distribution in which both classes occur —
it is not checked by the code in this case. -/
theorem C79_two_classes (a : TraceArgs) (valid : Bool) (py : Option (Fin 2 → ℚ)) (maxIter : ℕ) (D : ℕ → Draws 2)
    (hD : ∀ z, DrawsOk (D z)) (coin : Bool) (fuel : ℕ) (ht : 1 < a.trace) (ht' : a.trace ≤ 2)
    (M : Fin 2 → Fin 2 → ℚ) (h : fromTrace 2 a valid py maxIter D coin fuel = .value (some M)) :
    ∑ i, M i i = a.trace ∧ (∀ c, ∑ row, M row c = 1) ∧
    ∀ p : Fin 2 → ℚ, (∀ k, 0 < p k) → ∑ k, p k = 1 → ∀ k, (∑ j, M k j * p j) * p k < M k k * p k := by
  have key : ∑ i, M i i = a.trace ∧ (∀ c, ∑ row, M row c = 1) := by
    unfold fromTrace at h
    split_ifs at h with h1 h2 h3 h4
    · cases h
    · simp only [] at h
      unfold twoClasses at h
      by_cases hf : 1 / 2 ≤ a.fracZero
      · rw [if_pos hf] at h
        cases h
        cases coin
        · refine ⟨?_, fun c => ?_⟩
          · simp [Fin.sum_univ_two, Fin.rev]
          · fin_cases c <;> simp [Fin.sum_univ_two, Fin.rev]
        · refine ⟨?_, fun c => ?_⟩
          · simp [Fin.sum_univ_two]
          · fin_cases c <;> simp [Fin.sum_univ_two]
      · rw [if_neg hf] at h
        split at h
        · cases h
        · cases h
        · rename_i m hm
          split at hm
          · cases hm
          · cases hm
          · rename_i d hd
            cases hm
            cases h
            obtain ⟨hs, -, -⟩ := randProbs_spec a.trace 1 0 (D 0).diag (hD 0).diag _ _ (hD 0).diagU (hD 0).diagU' fuel d
              (by push_cast; linarith) (by push_cast; linarith) hd
            rw [Fin.sum_univ_two] at hs
            refine ⟨?_, fun c => ?_⟩
            · simpa [Fin.sum_univ_two] using hs
            · fin_cases c <;> simp [Fin.sum_univ_two]
    · rename_i h5
      exact absurd rfl h5
  refine ⟨key.1, key.2, ?_⟩
  obtain ⟨k1, k2⟩ := key
  have c0 := k2 0
  have c1 := k2 1
  intro p hp hps k
  simp only [Fin.sum_univ_two] at *
  have p0 := hp 0
  have p1 := hp 1
  refine mul_lt_mul_of_pos_right ?_ (hp k)
  fin_cases k
  · show M 0 0 * p 0 + M 0 1 * p 1 < M 0 0
    have e : p 0 = 1 - p 1 := by linarith
    have : M 0 1 < M 0 0 := by linarith
    rw [e]
    nlinarith
  · show M 1 0 * p 0 + M 1 1 * p 1 < M 1 1
    have e : p 1 = 1 - p 0 := by linarith
    have : M 1 0 < M 1 1 := by linarith
    rw [e]
    nlinarith

theorem value_of_toOption {α : Type} {o : Outcome α} {x : α} (h : o.toOption = some x) : o = .value x := by
  cases o with
  | value b => exact congrArg _ (Option.some.inj h)
  | raised msg => cases h
  | running => cases h

/-- Three classes, trace 3/2, even draws: the matrix with 1/2 on the diagonal and 1/4 elsewhere, which is valid for
equally frequent classes. -/
example : fromTrace 3 ⟨3/2, 1, 1/100000, 99999/100000, 0, 0⟩ true (some fun _ => 1/3) 5
    (fun _ => ⟨fun _ => 1/3, fun _ => 0, fun _ => 0, fun m _ => 1/m, fun _ => 0, fun _ => 0, fun _ m _ => 1/m, fun _ _ => 0,
      fun _ _ => 0, fun _ l m => l.take m⟩) true 1 =
    .value (some fun i j => if i = j then 1/2 else 1/4) := by
  refine value_of_toOption ?_
  decide +kernel

/-- Draws that take the given Dirichlet sample for the diagonal. -/
def drawsWith (d : Fin 2 → ℚ) : Draws 2 :=
  ⟨d, fun _ => 0, fun _ => 0, fun m i => if i.val = 0 ∧ 0 < m then 1 else 0, fun _ => 0, fun _ => 0,
    fun _ m i => if i.val = 0 ∧ 0 < m then 1 else 0, fun _ _ => 0, fun _ _ => 0, fun _ l m => l.take m⟩

theorem isDraw_first (m : ℕ) (hm : m ≠ 0) : IsDraw (fun i : Fin m => if i.val = 0 ∧ 0 < m then (1 : ℚ) else 0) := by
  constructor
  · intro i
    show (0 : ℚ) ≤ if i.val = 0 ∧ 0 < m then 1 else 0
    split_ifs <;> norm_num
  · rw [Finset.sum_eq_single (⟨0, by omega⟩ : Fin m)]
    · simp; omega
    · intro i _ hi
      rw [if_neg]
      rintro ⟨h, -⟩
      exact hi (Fin.ext h)
    · intro h; exact absurd (Finset.mem_univ _) h

theorem drawsWith_ok (d : Fin 2 → ℚ) (hd : IsDraw d) : DrawsOk (drawsWith d) :=
  ⟨hd, fun _ => ⟨le_rfl, by norm_num [drawsWith]⟩, fun _ => ⟨le_rfl, by norm_num [drawsWith]⟩, fun m hm => isDraw_first m hm,
    fun _ => ⟨le_rfl, by norm_num [drawsWith]⟩, fun _ => ⟨le_rfl, by norm_num [drawsWith]⟩, fun _ m hm => isDraw_first m hm,
    fun _ _ => ⟨le_rfl, by norm_num [drawsWith]⟩, fun _ _ => ⟨le_rfl, by norm_num [drawsWith]⟩, fun _ => isChoice_take⟩

/-- **C79 fails for two classes**: `max_trace_prob`, `min_trace_prob`, `max_noise_rate` and `min_noise_rate` are
ignored. With trace 3/2 and `max_trace_prob = 4/5` the returned matrix can have the diagonal entry 1. -/
theorem C79_not_two_class_bounds : ∃ (a : TraceArgs) (D : Draws 2) (M : Fin 2 → Fin 2 → ℚ), ArgsOk 2 a ∧ DrawsOk D ∧
    fromTrace 2 a true (some ![1/2, 1/2]) 1 (fun _ => D) true 1 = .value (some M) ∧
    a.maxTrace + 1 / 10 ^ 6 < M 0 0 := by
  refine ⟨⟨3/2, 4/5, 0, 1, 0, 0⟩, drawsWith ![2/3, 1/3], ![![1, 1/2], ![0, 1/2]], ?_, ?_, ?_, ?_⟩
  · constructor <;> norm_num
  · refine drawsWith_ok _ ⟨?_, ?_⟩
    · intro i; fin_cases i <;> norm_num
    · norm_num [Fin.sum_univ_two]
  · have hr : randProbs (n := 2) (3/2) 1 0 ![2/3, 1/3] (fun _ => 0) (fun _ => 0) 1 = .value ![1, 1/2] := by
      have h1 : capLoop (n := 2) 1 (fun _ => 0) 1 0 (fun i => (![2/3, 1/3] : Fin 2 → ℚ) i * (3/2)) = some ![1, 1/2] := by
        decide +kernel
      have h2 : raiseLoop (n := 2) 0 (fun _ => 0) 1 0 ![1, 1/2] = some ![1, 1/2] := by decide +kernel
      unfold randProbs
      rw [if_neg (by decide +kernel), if_neg (by decide +kernel), h1]
      simp only [h2]
    unfold fromTrace
    rw [if_neg (by norm_num), if_neg (by norm_num), dif_neg (by norm_num), if_neg (by norm_num), dif_pos rfl]
    unfold twoClasses
    simp only [drawsWith]
    rw [if_neg (by norm_num), hr]
    simp only []
    congr 2
    decide +kernel
  · norm_num [eps]

/-- **C79, refusals.** A valid noise matrix of trace at most 1 is refused, and so is one for more than two classes
without the class priors, and any noise matrix for fewer than two classes. -/
theorem C79_refused (a : TraceArgs) (py : Option (Fin K → ℚ)) (maxIter : ℕ) (D : ℕ → Draws K) (coin : Bool) (fuel : ℕ) :
    (a.trace ≤ 1 → ∃ e, fromTrace K a true py maxIter D coin fuel = .raised e) ∧
    (2 < K → py = none → ∃ e, fromTrace K a true py maxIter D coin fuel = .raised e) ∧
    (K ≤ 1 → ∀ valid, ∃ e, fromTrace K a valid py maxIter D coin fuel = .raised e) := by
  refine ⟨fun h => ?_, fun h hp => ?_, fun h valid => ?_⟩
  · unfold fromTrace
    rw [if_pos ⟨rfl, h⟩]
    exact ⟨_, rfl⟩
  · unfold fromTrace
    by_cases h1 : true = true ∧ a.trace ≤ 1
    · rw [if_pos h1]; exact ⟨_, rfl⟩
    · rw [if_neg h1, if_pos ⟨rfl, by rw [hp]; rfl, h⟩]; exact ⟨_, rfl⟩
  · unfold fromTrace
    by_cases h1 : valid = true ∧ a.trace ≤ 1
    · rw [if_pos h1]; exact ⟨_, rfl⟩
    · rw [if_neg h1]
      by_cases h2 : valid = true ∧ py.isNone = true ∧ 2 < K
      · rw [if_pos h2]; exact ⟨_, rfl⟩
      · rw [if_neg h2, dif_pos h]; exact ⟨_, rfl⟩

end Cleanlab.Props
