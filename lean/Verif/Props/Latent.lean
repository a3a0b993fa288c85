import Verif.Model.Latent
import Verif.Props.Count
import Verif.Props.Rank

/-!
# C26, C27, C58: latent algebra, clipping, latent estimates
-/

namespace Cleanlab.Props

open Np Cleanlab.Util Cleanlab.Count Cleanlab.Latent Cleanlab.Spec

variable {n K : ℕ}

/-- `TINY_VALUE` of the code. -/
abbrev tiny : ℚ := 1 / 10 ^ 100

theorem clipTiny_of_le {x : ℚ} (h : tiny ≤ x) : clipTiny x = x := max_eq_left h

theorem tiny_pos : (0 : ℚ) < tiny := by positivity

theorem clip_nonneg {x low high : ℚ} (h1 : 0 ≤ low) (h2 : 0 ≤ high) : 0 ≤ clip x low high :=
  le_min (le_max_of_le_right h1) h2

theorem clip_of_mem {x low high : ℚ} (h1 : low ≤ x) (h2 : x ≤ high) : clip x low high = x := by
  unfold clip
  rw [max_eq_left h1, min_eq_left h2]

theorem clipOff_of_mem {m : Fin K → Fin K → ℚ} (h0 : ∀ a b, 0 ≤ m a b)
    (h1 : ∀ a b, a ≠ b → m a b ≤ 9999 / 10000) (a b : Fin K) : clipOff m a b = m a b := by
  unfold clipOff
  split_ifs with h
  · rfl
  · exact clip_of_mem (h0 a b) (h1 a b h)

theorem clipNoiseRates_of_stochastic {m : Fin K → Fin K → ℚ} (h0 : ∀ a b, 0 ≤ m a b)
    (h1 : ∀ a b, a ≠ b → m a b ≤ 9999 / 10000) (hs : ∀ b, ∑ a, m a b = 1) : clipNoiseRates m = m := by
  funext a b
  unfold clipNoiseRates
  simp only [clipOff_of_mem h0 h1, hs]
  rw [clipTiny_of_one_le le_rfl, div_one]

/-! ## C26 -/

/-- **C26 (partial).** For a column-stochastic noise matrix with noise rates at most `0.9999`, a strictly
positive prior and positive label frequencies, and posteriors `P(true=y | given=s)` at most `0.9999` off the
diagonal, the inverse noise matrix is given by Bayes' rule, its columns sum to 1, its joint has the two
marginals, and converting back recovers the noise matrix exactly. Missing: rates above `0.9999` are altered
and classes that are never observed give zero columns, see the refutation. -/
theorem C26_bayes_round_trip_partial (py : Fin K → ℚ) (noise : Fin K → Fin K → ℚ)
    (hpy : ∀ y, tiny ≤ py y) (hn0 : ∀ s y, 0 ≤ noise s y) (hcol : ∀ y, ∑ s, noise s y = 1)
    (hn1 : ∀ s y, s ≠ y → noise s y ≤ 9999 / 10000)
    (hps : ∀ s, tiny ≤ ∑ y, noise s y * py y)
    (hpost : ∀ s y, s ≠ y → noise s y * py y ≤ 9999 / 10000 * ∑ y', noise s y' * py y') :
    let ps := fun s => ∑ y, noise s y * py y
    let inv := computeInvNoiseMatrix py noise none
    (∀ y s, inv y s = noise s y * py y / ps s) ∧
    (∀ s, ∑ y, inv y s = 1) ∧
    (∀ y, ∑ s, inv y s * ps s = py y) ∧ (∀ s, ∑ y, inv y s * ps s = ps s) ∧
    computeNoiseMatrixFromInverse ps inv none = noise := by
  intro ps inv
  have hpspos : ∀ s, 0 < ps s := fun s => lt_of_lt_of_le tiny_pos (hps s)
  have hpypos : ∀ y, 0 < py y := fun y => lt_of_lt_of_le tiny_pos (hpy y)
  have hinv : inv = fun y s => noise s y * py y / ps s := by
    have h1 : (fun y s => noise s y * py y / clipTiny (∑ y, noise s y * py y)) =
        fun y s => noise s y * py y / ps s := by
      funext y s
      rw [clipTiny_of_le (hps s)]
    show clipNoiseRates (fun y s => noise s y * py y / clipTiny (∑ y, noise s y * py y)) = _
    rw [h1]
    apply clipNoiseRates_of_stochastic
    · intro y s
      exact div_nonneg (mul_nonneg (hn0 s y) (hpypos y).le) (hpspos s).le
    · intro y s hne
      rw [div_le_iff₀ (hpspos s)]
      exact hpost s y (Ne.symm hne)
    · intro s
      rw [← Finset.sum_div]
      exact div_self (hpspos s).ne'
  have hjoint : ∀ y s, inv y s * ps s = noise s y * py y := by
    intro y s
    rw [hinv]
    exact div_mul_cancel₀ _ (hpspos s).ne'
  have hmarg : ∀ y, ∑ s, inv y s * ps s = py y := by
    intro y
    simp only [hjoint]
    rw [← Finset.sum_mul, hcol, one_mul]
  refine ⟨fun y s => by rw [hinv], ?_, hmarg, ?_, ?_⟩
  · intro s
    rw [hinv]
    show ∑ y, noise s y * py y / ps s = 1
    rw [← Finset.sum_div]
    exact div_self (hpspos s).ne'
  · intro s
    simp only [hjoint]
    rfl
  · have h1 : (fun s y => inv y s * ps s / clipTiny (∑ s, inv y s * ps s)) = noise := by
      funext s y
      rw [hmarg, clipTiny_of_le (hpy y), hjoint]
      exact mul_div_cancel_right₀ _ (hpypos y).ne'
    show clipNoiseRates (fun s y => inv y s * ps s / clipTiny (∑ s, inv y s * ps s)) = noise
    rw [h1]
    exact clipNoiseRates_of_stochastic hn0 hn1 hcol

example : (∀ y, tiny ≤ (![1/4, 3/4] : Fin 2 → ℚ) y) ∧
    (∀ y, ∑ s, (![![9/10, 1/5], ![1/10, 4/5]] : Fin 2 → Fin 2 → ℚ) s y = 1) ∧
    (∀ s, tiny ≤ ∑ y, (![![9/10, 1/5], ![1/10, 4/5]] : Fin 2 → Fin 2 → ℚ) s y * (![1/4, 3/4] : Fin 2 → ℚ) y) ∧
    (∀ s y, s ≠ y → (![![9/10, 1/5], ![1/10, 4/5]] : Fin 2 → Fin 2 → ℚ) s y * (![1/4, 3/4] : Fin 2 → ℚ) y ≤
      9999 / 10000 * ∑ y', (![![9/10, 1/5], ![1/10, 4/5]] : Fin 2 → Fin 2 → ℚ) s y' *
        (![1/4, 3/4] : Fin 2 → ℚ) y') := by decide +kernel

/-- **C26 (refuted as stated).** With a class that is never given as a label the inverse noise matrix has a
column summing to 0, although the prior is strictly positive. -/
theorem C26_not_columns_sum_to_one :
    ¬ ∀ (K : ℕ) (py : Fin K → ℚ) (noise : Fin K → Fin K → ℚ), (∀ y, 1 / 100 ≤ py y) → ∑ y, py y = 1 →
      (∀ s y, 0 ≤ noise s y) → (∀ y, ∑ s, noise s y = 1) →
      ∀ s, ∑ y, computeInvNoiseMatrix py noise none y s = 1 := by
  intro h
  have := h 2 ![1/2, 1/2] ![![1, 1], ![0, 0]] (by decide +kernel) (by decide +kernel) (by decide +kernel)
    (by decide +kernel) 1
  revert this
  decide +kernel

/-- **C26 (refuted as stated).** With a noise rate above `0.9999` the round trip changes the matrix, although
prior and label frequencies are positive. -/
theorem C26_not_round_trip :
    ¬ ∀ (K : ℕ) (py : Fin K → ℚ) (noise : Fin K → Fin K → ℚ), (∀ y, 1 / 100 ≤ py y) → ∑ y, py y = 1 →
      (∀ s y, 0 ≤ noise s y) → (∀ y, ∑ s, noise s y = 1) → (∀ s, 1 / 100 ≤ ∑ y, noise s y * py y) →
      computeNoiseMatrixFromInverse (fun s => ∑ y, noise s y * py y) (computeInvNoiseMatrix py noise none) none =
        noise := by
  intro h
  have := h 2 ![1/2, 1/2] ![![1/100000, 1/2], ![99999/100000, 1/2]] (by decide +kernel) (by decide +kernel)
    (by decide +kernel) (by decide +kernel) (by decide +kernel)
  have := congrFun (congrFun this 0) 0
  revert this
  decide +kernel

/-! ## C27 -/

/-- **C27 (partial)**, `clip_noise_rates`: the result is non-negative, and a column sums to 1 as soon as its input has
one entry of at least `1e-100` (and a non-negative diagonal). -/
theorem C27_clip_noise_rates_partial (m : Fin K → Fin K → ℚ) (b : Fin K) (hd : 0 ≤ m b b) (he : ∃ a, tiny ≤ m a b) :
    (∀ a, 0 ≤ clipNoiseRates m a b) ∧ ∑ a, clipNoiseRates m a b = 1 := by
  have hnn : ∀ a, 0 ≤ clipOff m a b := by
    intro a
    unfold clipOff
    split_ifs with h
    · rw [h]; exact hd
    · exact clip_nonneg le_rfl (by norm_num)
  have hge : tiny ≤ ∑ a, clipOff m a b := by
    obtain ⟨a, ha⟩ := he
    refine le_trans ?_ (Finset.single_le_sum (f := fun a => clipOff m a b) (fun a _ => hnn a) (Finset.mem_univ a))
    unfold clipOff
    split_ifs with h
    · exact ha
    · unfold clip
      refine le_min (le_max_of_le_left ha) ?_
      rw [div_le_div_iff₀ (by positivity) (by norm_num)]
      norm_num
  have hpos : 0 < ∑ a, clipOff m a b := lt_of_lt_of_le tiny_pos hge
  unfold clipNoiseRates
  rw [clipTiny_of_le hge]
  exact ⟨fun a => div_nonneg (hnn a) hpos.le, by rw [← Finset.sum_div, div_self hpos.ne']⟩

/-- **C27**: a column that is a distribution is turned into a distribution, whatever its entries. -/
theorem C27_clip_noise_rates_distribution (m : Fin K → Fin K → ℚ) (b : Fin K)
    (h : IsDistribution (fun a => m a b)) : IsDistribution (fun a => clipNoiseRates m a b) := by
  by_cases he : ∃ a, tiny ≤ m a b
  · exact C27_clip_noise_rates_partial m b (h.1 b) he
  · push Not at he
    have ht : tiny ≤ 9999 / 10000 := by
      rw [div_le_div_iff₀ (by positivity) (by norm_num)]
      norm_num
    have hc : ∀ a, clipOff m a b = m a b := by
      intro a
      unfold clipOff
      split_ifs
      · rfl
      · exact clip_of_mem (h.1 a) ((he a).le.trans ht)
    have h1 : ∀ a, clipNoiseRates m a b = m a b := by
      intro a
      have hs : ∑ a, m a b = 1 := h.2
      unfold clipNoiseRates
      simp only [hc, hs]
      rw [clipTiny_of_one_le le_rfl, div_one]
    exact ⟨fun a => by simp only [h1]; exact h.1 a, by simp only [h1]; exact h.2⟩

/-- **C27 fails for a zero column**: it stays zero. -/
theorem C27_not_zero_column (m : Fin K → Fin K → ℚ) (b : Fin K) (h : ∀ a, m a b = 0) :
    ∑ a, clipNoiseRates m a b = 0 := by
  apply Finset.sum_eq_zero
  intro a _
  unfold clipNoiseRates
  have : clipOff m a b = 0 := by
    unfold clipOff clip
    rw [h]
    split_ifs
    · rfl
    · norm_num
  rw [this, zero_div]

/-- **C27**: entries that are valid (columns summing to 1, rates at most `0.9999`) are not changed. -/
theorem C27_clip_noise_rates_valid (m : Fin K → Fin K → ℚ) (h0 : ∀ a b, 0 ≤ m a b)
    (h1 : ∀ a b, a ≠ b → m a b ≤ 9999 / 10000) (hs : ∀ b, ∑ a, m a b = 1) : clipNoiseRates m = m :=
  clipNoiseRates_of_stochastic h0 h1 hs

/-- **C27**, `remove_noise_from_class`: columns sum to 1, no other class is mislabelled as `c`, noise rates
into other classes are kept, and for a column-stochastic input all entries are non-negative. -/
theorem C27_remove_noise_from_class (m : Fin K → Fin K → ℚ) (c : Fin K) :
    (∀ b, ∑ a, removeNoiseFromClass m c a b = 1) ∧
    (∀ b, b ≠ c → removeNoiseFromClass m c c b = 0) ∧
    (∀ a b, a ≠ b → a ≠ c → removeNoiseFromClass m c a b = m a b) ∧
    ((∀ a b, 0 ≤ m a b) → (∀ b, ∑ a, m a b = 1) → ∀ a b, 0 ≤ removeNoiseFromClass m c a b) := by
  refine ⟨?_, ?_, ?_, ?_⟩
  · intro b
    rw [← Finset.add_sum_erase _ _ (Finset.mem_univ b)]
    have h1 : ∑ a ∈ Finset.univ.erase b, removeNoiseFromClass m c a b =
        ∑ a ∈ Finset.univ.erase b, zeroRow m c a b := by
      apply Finset.sum_congr rfl
      intro a ha
      unfold removeNoiseFromClass
      simp only [if_neg (Finset.ne_of_mem_erase ha)]
    have h2 : ∑ a, zeroRow m c a b = zeroRow m c b b + ∑ a ∈ Finset.univ.erase b, zeroRow m c a b :=
      (Finset.add_sum_erase _ _ (Finset.mem_univ b)).symm
    have h3 : removeNoiseFromClass m c b b = 1 - (∑ a', zeroRow m c a' b - zeroRow m c b b) := by
      unfold removeNoiseFromClass; simp
    rw [h1, h3, h2]
    ring
  · intro b hb
    unfold removeNoiseFromClass zeroRow
    simp [Ne.symm hb, hb]
  · intro a b hab hac
    unfold removeNoiseFromClass zeroRow
    simp [hab, hac]
  · intro h0 hs a b
    unfold removeNoiseFromClass
    simp only
    have hz : ∀ a b, 0 ≤ zeroRow m c a b := by
      intro a b; unfold zeroRow; split_ifs
      · exact le_rfl
      · exact h0 a b
    have hle : ∀ a b, zeroRow m c a b ≤ m a b := by
      intro a b; unfold zeroRow; split_ifs
      · exact h0 a b
      · exact le_rfl
    split_ifs with h
    · have h1 : ∑ a', zeroRow m c a' b ≤ 1 := by
        rw [← hs b]; exact Finset.sum_le_sum (fun a _ => hle a b)
      have h2 := hz b b
      linarith
    · exact hz a b

/-- **C27**, `clip_values` with a target sum: the values are non-negative and have exactly the target sum when
the lower bound is positive, or some value is positive. -/
theorem C27_clip_values (x : Fin K → ℚ) (low high s : ℚ) (hl : 0 ≤ low) (hs : 0 ≤ s)
    (hh : tiny ≤ high) (h : (tiny ≤ low ∧ 0 < K) ∨ ∃ k, tiny ≤ x k) :
    (∀ k, 0 ≤ clipValues x low high (some s) k) ∧ ∑ k, clipValues x low high (some s) k = s := by
  have hnn : ∀ k, 0 ≤ clip (x k) low high := fun k => clip_nonneg hl (tiny_pos.le.trans hh)
  have hge : tiny ≤ ∑ k, clip (x k) low high := by
    have : ∃ k, tiny ≤ clip (x k) low high := by
      rcases h with ⟨h1, h2⟩ | ⟨k, hk⟩
      · exact ⟨⟨0, h2⟩, le_min (le_max_of_le_right h1) hh⟩
      · exact ⟨k, le_min (le_max_of_le_left hk) hh⟩
    obtain ⟨k, hk⟩ := this
    exact hk.trans (Finset.single_le_sum (f := fun k => clip (x k) low high) (fun k _ => hnn k) (Finset.mem_univ k))
  have hpos : 0 < ∑ k, clip (x k) low high := lt_of_lt_of_le tiny_pos hge
  unfold clipValues
  simp only
  rw [clipTiny_of_le hge]
  refine ⟨fun k => div_nonneg (mul_nonneg (hnn k) hs) hpos.le, ?_⟩
  rw [← Finset.sum_div, ← Finset.sum_mul]
  field_simp

example : clipValues (![-1, 1/2, 3] : Fin 3 → ℚ) 0 1 (some 1) = ![0, 1/3, 2/3] := by decide +kernel

/-! ## C58 -/

theorem clipValues_pos (hK : 0 < K) (x : Fin K → ℚ) {low : ℚ} (h0 : 0 < low) (h1 : tiny ≤ low) :
    IsDistribution (clipValues x low 1 (some 1)) ∧ ∀ k, 0 < clipValues x low 1 (some 1) k := by
  have h := C27_clip_values x low 1 1 h0.le zero_le_one (by unfold tiny; norm_num) (Or.inl ⟨h1, hK⟩)
  refine ⟨h, fun k => ?_⟩
  unfold clipValues
  have hc : 0 < clip (x k) low 1 := lt_min (lt_max_of_lt_right h0) one_pos
  exact div_pos (mul_pos hc one_pos) (clipTiny_pos _)

/-- **C58**, the prior returned by `compute_py`, whatever the method and the matrices: a distribution in which
every class has positive probability. -/
theorem C58_py_is_distribution (hK : 0 < K) (ps : Fin K → ℚ) (noise inv : Fin K → Fin K → ℚ)
    (counts : Option (Fin K → ℚ)) (method : PyMethod K) (py : Fin K → ℚ)
    (h : computePy ps noise inv counts method = .ok py) : IsDistribution py ∧ ∀ k, 0 < py k := by
  unfold computePy at h
  cases hr : rawPy ps noise inv counts method with
  | error e => rw [hr] at h; cases h
  | ok x =>
    rw [hr] at h
    cases h
    exact clipValues_pos hK x (by unfold clippingLowerBound; norm_num) (by unfold clippingLowerBound; norm_num)

/-- **C58**, the prior from given frequencies `x` (method `eqn`): they are kept above one in a million and at most 1, and
divided by their sum. -/
theorem C58_py_formula (hK : 0 < K) (ps x : Fin K → ℚ) (noise inv : Fin K → Fin K → ℚ) (counts : Option (Fin K → ℚ)) :
    computePy ps noise inv counts (.eqn x) =
      .ok (fun k => min (max (x k) (1 / 10 ^ 6)) 1 / ∑ j, min (max (x j) (1 / 10 ^ 6)) 1) := by
  unfold computePy rawPy
  dsimp only [bind, Except.bind, pure, Except.pure]
  congr 1
  funext k
  have e : clippingLowerBound = 1 / 10 ^ 6 := by unfold clippingLowerBound; norm_num
  unfold clipValues
  rw [e]
  dsimp only [clip]
  have h : tiny ≤ ∑ j, min (max (x j) (1 / 10 ^ 6)) 1 := by
    refine le_trans ?_ (Finset.single_le_sum (f := fun j => min (max (x j) (1 / 10 ^ 6)) 1)
      (fun j _ => le_min (le_max_of_le_right (by norm_num)) zero_le_one) (Finset.mem_univ (⟨0, hK⟩ : Fin K)))
    refine le_min (le_max_of_le_right ?_) ?_ <;> (unfold tiny; norm_num)
  rw [mul_one]
  congr 1
  unfold clipTiny
  exact max_eq_left h

example : computePy ![1/2, 1/2] (fun _ _ => 0) (fun _ _ => 0) none (.eqn ![-1, 1 - 1 / 10 ^ 6]) =
    .ok ![1 / 10 ^ 6, 1 - 1 / 10 ^ 6] := by
  rw [C58_py_formula (by norm_num)]
  congr 1
  funext k
  match k with
  | 0 => simp [Fin.sum_univ_two]; norm_num
  | 1 => simp [Fin.sum_univ_two]; norm_num

/-- **C58**, `compute_pyx`: each row is a distribution if some class has a positive diagonal product. -/
theorem C58_pyx_is_distribution (P : Fin n → Fin K → ℚ) (noise inv : Fin K → Fin K → ℚ) (i : Fin n)
    (h : ∃ k, tiny ≤ P i k * inv k k / clipTiny (noise k k)) : IsDistribution (computePyx P noise inv i) := by
  exact C27_clip_values _ 0 1 1 le_rfl zero_le_one (by unfold tiny; norm_num) (Or.inr h)

/-- **C58 (partial)**, `estimate_latent`: the prior is a distribution with positive entries; without
`converge_latent_estimates` the columns of both matrices are distributions for every class that the confident
joint counts as true class, respectively as given label. Missing: classes that are not counted. -/
theorem C58_estimate_latent_partial (hK : 0 < K) (cj : Fin K → Fin K → ℚ) (hcj : ∀ a b, 0 ≤ cj a b)
    (labels : Fin n → Fin K) (method : PyMethod K) (converge : Bool) :
    ∃ py noise inv, estimateLatent cj labels method converge = .ok (py, noise, inv) ∧
      IsDistribution py ∧ (∀ k, 0 < py k) ∧
      (converge = false →
        (∀ y, (∃ s, 1 ≤ cj s y) → IsDistribution (fun s => noise s y)) ∧
        (∀ s, (∃ y, 1 ≤ cj s y) → IsDistribution (fun y => inv y s))) := by
  have hcol : ∀ (m : Fin K → Fin K → ℚ), (∀ a b, 0 ≤ m a b) → ∀ b, (∃ a, 1 ≤ m a b) →
      IsDistribution (fun a => clipNoiseRates (fun a b => m a b / clipTiny (∑ a', m a' b)) a b) := by
    intro m hm b ⟨a, ha⟩
    have hs : 1 ≤ ∑ a', m a' b :=
      ha.trans (Finset.single_le_sum (f := fun a' => m a' b) (fun a' _ => hm a' b) (Finset.mem_univ a))
    have hnn : ∀ a, 0 ≤ m a b / clipTiny (∑ a', m a' b) := fun a => div_nonneg (hm a b) (clipTiny_pos _).le
    refine C27_clip_noise_rates_distribution _ b ⟨hnn, ?_⟩
    show ∑ a, m a b / clipTiny (∑ a', m a' b) = 1
    rw [← Finset.sum_div, clipTiny_of_one_le hs, div_self (by linarith)]
  obtain ⟨py, hpy⟩ : ∃ py, computePy (fun k => (labelCounts labels k : ℚ) / n)
      (fun s y => cj s y / clipTiny (∑ s, cj s y)) (fun y s => cj s y / clipTiny (∑ y, cj s y))
      (some fun y => ∑ s, cj s y) method = .ok py := by
    cases method <;> exact ⟨_, rfl⟩
  have hd := C58_py_is_distribution hK _ _ _ _ _ _ hpy
  unfold estimateLatent
  simp only [hpy]
  cases converge with
  | false =>
    refine ⟨_, _, _, rfl, hd.1, hd.2, fun _ => ⟨?_, ?_⟩⟩
    · exact hcol cj hcj
    · exact hcol (fun y s => cj s y) (fun y s => hcj s y)
  | true =>
    have h := clipValues_pos hK (convergeEstimates (fun k => (labelCounts labels k : ℚ) / n) py
      (clipNoiseRates fun s y => cj s y / clipTiny (∑ s, cj s y))
      (clipNoiseRates fun y s => cj s y / clipTiny (∑ y, cj s y))).1 (low := 1 / 100000) (by norm_num)
      (by unfold tiny; norm_num)
    exact ⟨_, _, _, rfl, h.1, h.2, fun h => by cases h⟩

example : (∀ a b, (0 : ℚ) ≤ (![![3, 1], ![0, 2]] : Fin 2 → Fin 2 → ℚ) a b) ∧
    (∀ y, ∃ s, (1 : ℚ) ≤ (![![3, 1], ![0, 2]] : Fin 2 → Fin 2 → ℚ) s y) ∧
    (∀ s, ∃ y, (1 : ℚ) ≤ (![![3, 1], ![0, 2]] : Fin 2 → Fin 2 → ℚ) s y) := by decide +kernel

/-- **C58 (refuted as stated).** On a valid data set in which class 1 has no example and is never predicted,
the noise matrix estimated from the calibrated confident joint has a column summing to 0. -/
theorem C58_not_noise_matrix_stochastic (A : ArgSort ℚ) :
    ¬ ∀ (n K : ℕ) (_ : NeZero K) (labels : Fin n → Fin K) (P : Fin n → Fin K → ℚ)
      (py : Fin K → ℚ) (noise inv : Fin K → Fin K → ℚ), RowStochastic P →
      estimateLatent (fun a b => (computeConfidentJoint A labels P (getConfidentThresholds labels P) true a b : ℚ))
        labels .cnt false = .ok (py, noise, inv) →
      ∀ y, ∑ s, noise s y = 1 := by
  intro h
  obtain ⟨py, noise, inv, he, -⟩ := C58_estimate_latent_partial (n := 1) (K := 2) (by norm_num)
    (fun a b => (computeConfidentJoint A (![0] : Fin 1 → Fin 2) ![![1, 0]]
      (getConfidentThresholds (![0] : Fin 1 → Fin 2) ![![1, 0]]) true a b : ℚ))
    (fun a b => by exact_mod_cast (C01_calibrated_confident_joint A _ _ _).1 a b) (![0] : Fin 1 → Fin 2)
    .cnt false
  have h1 := h 1 2 inferInstance ![0] ![![1, 0]] py noise inv (by unfold RowStochastic; decide +kernel) he 1
  have hz : ∀ a, computeConfidentJoint A (![0] : Fin 1 → Fin 2) ![![1, 0]]
      (getConfidentThresholds (![0] : Fin 1 → Fin 2) ![![1, 0]]) true a 1 = 0 := by
    intro a
    unfold computeConfidentJoint calibrateConfidentJoint
    rw [if_pos rfl]
    apply roundRows_intCast
    revert a
    decide +kernel
  have hn : noise = clipNoiseRates (fun s y => (computeConfidentJoint A (![0] : Fin 1 → Fin 2) ![![1, 0]]
      (getConfidentThresholds (![0] : Fin 1 → Fin 2) ![![1, 0]]) true s y : ℚ) /
      clipTiny (∑ s, (computeConfidentJoint A (![0] : Fin 1 → Fin 2) ![![1, 0]]
      (getConfidentThresholds (![0] : Fin 1 → Fin 2) ![![1, 0]]) true s y : ℚ))) := by
    cases he; rfl
  rw [hn, C27_not_zero_column _ 1 (fun a => by rw [hz]; simp)] at h1
  exact zero_ne_one h1

end Cleanlab.Props
