import Verif.Model.Batched
import Verif.Lemmas.Count

namespace Cleanlab.Batched

open Np Cleanlab.Util Cleanlab.Count Cleanlab.Rank Cleanlab.Spec

variable {K : ℕ}

/-- Number of examples of a list with given label `k`. -/
def given (b : List (Ex K)) (k : Fin K) : ℕ := b.countP (fun e => decide (e.1 = k))

/-- Sum of the predicted probabilities of `k` over the examples of a list with given label `k`. -/
def mass (b : List (Ex K)) (k : Fin K) : ℚ := ((b.filter (fun e => decide (e.1 = k))).map (fun e => e.2 k)).sum

theorem given_append (a b : List (Ex K)) (k : Fin K) : given (a ++ b) k = given a k + given b k := by
  unfold given; rw [List.countP_append]

theorem mass_append (a b : List (Ex K)) (k : Fin K) : mass (a ++ b) k = mass a k + mass b k := by
  unfold mass; rw [List.filter_append, List.map_append, List.sum_append]

theorem ofFn_labelsOf (b : List (Ex K)) : List.ofFn (labelsOf b) = b.map Prod.fst := by
  unfold labelsOf
  rw [List.ofFn_eq_map]
  have : (fun i => (b.get i).1) = Prod.fst ∘ b.get := rfl
  rw [this, ← List.map_map, List.map_get_finRange]

theorem labelCounts_labelsOf (b : List (Ex K)) (k : Fin K) : labelCounts (labelsOf b) k = given b k := by
  unfold labelCounts given
  rw [ofFn_labelsOf, List.count, List.countP_map]
  congr 1

theorem mem_labelsOf (b : List (Ex K)) (k : Fin K) : k ∈ List.ofFn (labelsOf b) ↔ 0 < given b k := by
  rw [ofFn_labelsOf, given, List.countP_pos_iff, List.mem_map]
  simp

theorem classMean_labelsOf (b : List (Ex K)) (k : Fin K) :
    classMean (labelsOf b) (probsOf b) k = mass b k / given b k := by
  unfold classMean mass given labelsOf probsOf
  have h1 : (fun i => decide ((b.get i).1 = k)) = (fun e : Ex K => decide (e.1 = k)) ∘ b.get := rfl
  have h2 : (fun i => (b.get i).2 k) = (fun e : Ex K => e.2 k) ∘ b.get := rfl
  simp only [h1, h2]
  rw [← List.map_map, ← List.filter_map, List.map_get_finRange, List.length_map, List.countP_eq_length_filter]

theorem meanSelfConfidence_labelsOf (b : List (Ex K)) (k : Fin K) :
    meanSelfConfidence (labelsOf b) (probsOf b) k = mass b k / given b k := by
  rw [← classMean_eq, classMean_labelsOf]

theorem thresholds_of_pos (b : List (Ex K)) (k : Fin K) (h : 0 < given b k) :
    getConfidentThresholds (labelsOf b) (probsOf b) k = max (mass b k / given b k) thresholdsLowerBound := by
  unfold getConfidentThresholds
  rw [if_pos ((mem_labelsOf b k).mpr h), classMean_labelsOf]

theorem thresholds_of_zero (b : List (Ex K)) (k : Fin K) (h : given b k = 0) :
    getConfidentThresholds (labelsOf b) (probsOf b) k = 2 := by
  unfold getConfidentThresholds
  rw [if_neg (by rw [mem_labelsOf]; omega)]
  exact max_eq_left (by unfold thresholdsLowerBound; norm_num)

theorem lowerBound_pos : 0 < thresholdsLowerBound := by unfold thresholdsLowerBound; norm_num

/-- What one batch contributes: at least its mass and at least the lower bound per example. -/
theorem batch_lower (b : List (Ex K)) (k : Fin K) :
    mass b k ≤ given b k * getConfidentThresholds (labelsOf b) (probsOf b) k ∧
    given b k * thresholdsLowerBound ≤ given b k * getConfidentThresholds (labelsOf b) (probsOf b) k := by
  rcases Nat.eq_zero_or_pos (given b k) with h | h
  · have h0 : mass b k = 0 := by
      unfold mass
      have : b.filter (fun e => decide (e.1 = k)) = [] := by
        rw [← List.length_eq_zero_iff, ← List.countP_eq_length_filter]; exact h
      rw [this]; rfl
    rw [h, h0]; simp
  · rw [thresholds_of_pos b k h]
    have hc : (0 : ℚ) < given b k := by exact_mod_cast h
    constructor
    · have := le_max_left (mass b k / given b k) thresholdsLowerBound
      calc mass b k = given b k * (mass b k / given b k) := by field_simp
        _ ≤ _ := mul_le_mul_of_nonneg_left this hc.le
    · exact mul_le_mul_of_nonneg_left (le_max_right _ _) hc.le

theorem mass_nonneg (b : List (Ex K)) (k : Fin K) (h : ∀ e ∈ b, 0 ≤ e.2 k) : 0 ≤ mass b k := by
  unfold mass
  refine List.sum_nonneg ?_
  intro x hx
  obtain ⟨e, he, rfl⟩ := List.mem_map.mp hx
  exact h e (List.mem_filter.mp he).1

/-- What one batch contributes is at most its mass plus the lower bound per example. -/
theorem batch_upper (b : List (Ex K)) (k : Fin K) (hn : ∀ e ∈ b, 0 ≤ e.2 k) :
    given b k * getConfidentThresholds (labelsOf b) (probsOf b) k ≤ mass b k + given b k * thresholdsLowerBound := by
  have hm := mass_nonneg b k hn
  rcases Nat.eq_zero_or_pos (given b k) with h | h
  · rw [h]; simpa using hm
  · rw [thresholds_of_pos b k h]
    have hc : (0 : ℚ) < given b k := by exact_mod_cast h
    have h1 : given b k * (mass b k / given b k) = mass b k := by field_simp
    have h2 := mul_pos hc lowerBound_pos
    rcases max_choice (mass b k / given b k) thresholdsLowerBound with e | e
    · rw [e, h1]; linarith
    · rw [e]; linarith

/-- The invariant of the streaming thresholds. -/
structure Inv (s : Inspector K) (D : List (Ex K)) (k : Fin K) : Prop where
  count : s.perClass k = given D k
  processed : s.processedThresh = D.length
  lower : mass D k ≤ given D k * s.thr k
  lower' : given D k * thresholdsLowerBound ≤ given D k * s.thr k

theorem mul_update (c m : ℕ) (t b : ℚ) (ht : c * thresholdsLowerBound ≤ c * t) (hb : m * thresholdsLowerBound ≤ m * b) :
    ((c + m : ℕ) : ℚ) * max ((c * t + m * b) / max ((c + m : ℕ) : ℚ) 1) thresholdsLowerBound = c * t + m * b := by
  rcases Nat.eq_zero_or_pos (c + m) with h | h
  · obtain ⟨rfl, rfl⟩ : c = 0 ∧ m = 0 := by omega
    simp
  · have h1 : (1 : ℚ) ≤ ((c + m : ℕ) : ℚ) := by exact_mod_cast h
    rw [max_eq_left h1]
    have hpos : (0 : ℚ) < ((c + m : ℕ) : ℚ) := by linarith
    have : thresholdsLowerBound ≤ (c * t + m * b) / ((c + m : ℕ) : ℚ) := by
      rw [le_div_iff₀ hpos]
      push_cast
      linarith
    rw [max_eq_left this]
    field_simp

theorem update_mul (s : Inspector K) (b D : List (Ex K)) (k : Fin K) (h : Inv s D k) :
    ((given D k + given b k : ℕ) : ℚ) * (updateThresholds s b).thr k = given D k * s.thr k +
      given b k * getConfidentThresholds (labelsOf b) (probsOf b) k := by
  unfold updateThresholds
  simp only [labelCounts_labelsOf, h.count]
  exact mul_update _ _ _ _ h.lower' (batch_lower b k).2

theorem Inv.update {s : Inspector K} {D : List (Ex K)} {k : Fin K} (h : Inv s D k) (b : List (Ex K)) :
    Inv (updateThresholds s b) (D ++ b) k := by
  have hm := update_mul s b D k h
  have hb := batch_lower b k
  refine ⟨?_, ?_, ?_, ?_⟩
  · unfold updateThresholds; simp only [labelCounts_labelsOf, h.count, given_append]
  · unfold updateThresholds; simp only [h.processed, List.length_append]
  · rw [given_append, hm, mass_append]; linarith [h.lower]
  · rw [given_append, hm]; push_cast; linarith [h.lower']

theorem inv_init (k : Fin K) : Inv ({} : Inspector K) [] k := ⟨rfl, rfl, by simp [mass, given], by simp [given]⟩

theorem inv_foldl (bs : List (List (Ex K))) (k : Fin K) : Inv (bs.foldl updateThresholds {}) bs.flatten k := by
  induction bs using List.reverseRecOn with
  | nil => exact inv_init k
  | append_singleton bs b ih =>
    rw [List.foldl_append, List.flatten_append]
    simpa using ih.update b

theorem foldl_upper (bs : List (List (Ex K))) (k : Fin K) (hn : ∀ e ∈ bs.flatten, 0 ≤ e.2 k) :
    given bs.flatten k * (bs.foldl updateThresholds {}).thr k ≤
      mass bs.flatten k + given bs.flatten k * thresholdsLowerBound := by
  induction bs using List.reverseRecOn with
  | nil => simp [mass, given]
  | append_singleton bs b ih =>
    rw [List.flatten_append] at hn ⊢
    rw [List.foldl_append]
    simp only [List.flatten_cons, List.flatten_nil, List.append_nil, List.foldl_cons, List.foldl_nil] at hn ⊢
    rw [given_append, update_mul _ _ _ _ (inv_foldl bs k), mass_append]
    have h1 := ih (fun e he => hn e (List.mem_append_left _ he))
    have h2 := batch_upper b k (fun e he => hn e (List.mem_append_right _ he))
    push_cast
    linarith

theorem foldl_exact (bs : List (List (Ex K))) (k : Fin K)
    (hb : ∀ b ∈ bs, 0 < given b k → thresholdsLowerBound ≤ mass b k / given b k) :
    given bs.flatten k * (bs.foldl updateThresholds {}).thr k = mass bs.flatten k := by
  induction bs using List.reverseRecOn with
  | nil => simp [mass, given]
  | append_singleton bs b ih =>
    rw [List.flatten_append, List.foldl_append]
    simp only [List.flatten_cons, List.flatten_nil, List.append_nil, List.foldl_cons, List.foldl_nil]
    rw [given_append, update_mul _ _ _ _ (inv_foldl bs k), mass_append,
      ih (fun b' h' => hb b' (List.mem_append_left _ h'))]
    congr 1
    rcases Nat.eq_zero_or_pos (given b k) with h | h
    · have := (batch_lower b k).1
      have h0 : mass b k = 0 := by
        unfold mass
        have : b.filter (fun e => decide (e.1 = k)) = [] := by
          rw [← List.length_eq_zero_iff, ← List.countP_eq_length_filter]; exact h
        rw [this]; rfl
      rw [h, h0]; simp
    · rw [thresholds_of_pos b k h, max_eq_left (hb b (by simp) h)]
      have hc : (0 : ℚ) < given b k := by exact_mod_cast h
      field_simp

theorem foldl_ge (bs : List (List (Ex K))) (hbs : bs ≠ []) (k : Fin K) :
    thresholdsLowerBound ≤ (bs.foldl updateThresholds {}).thr k := by
  induction bs using List.reverseRecOn with
  | nil => exact absurd rfl hbs
  | append_singleton bs b _ =>
    rw [List.foldl_append]
    exact le_max_right _ _

theorem foldl_absent (bs : List (List (Ex K))) (hbs : bs ≠ []) (k : Fin K) (hk : given bs.flatten k = 0) :
    (bs.foldl updateThresholds {}).thr k = thresholdsLowerBound := by
  induction bs using List.reverseRecOn with
  | nil => exact absurd rfl hbs
  | append_singleton bs b _ =>
    rw [List.flatten_append, given_append] at hk
    simp only [List.flatten_cons, List.flatten_nil, List.append_nil] at hk
    rw [List.foldl_append]
    have hc := (inv_foldl bs k).count
    show (updateThresholds (bs.foldl updateThresholds {}) b).thr k = _
    generalize bs.foldl updateThresholds {} = s at hc ⊢
    unfold updateThresholds
    simp only [labelCounts_labelsOf, hc]
    rw [show given bs.flatten k = 0 by omega, show given b k = 0 by omega]
    simp [lowerBound_pos.le]

/-! ### Splitting -/

theorem splitFuel_flatten {α : Type} (c : ℕ) (fuel : ℕ) (l : List α) : (splitFuel c fuel l).flatten = l := by
  induction fuel generalizing l with
  | zero => simp [splitFuel]
  | succ f ih =>
    unfold splitFuel
    split_ifs
    · simp
    · simp [ih]

theorem splitFuel_short {α : Type} (fuel : ℕ) (l : List α) (hf : l.length ≤ fuel) :
    ∀ ch ∈ splitFuel 1 fuel l, ch.length ≤ 1 := by
  induction fuel generalizing l with
  | zero => intro ch hc; simp [splitFuel] at hc; subst hc; omega
  | succ f ih =>
    intro ch hc
    unfold splitFuel at hc
    split_ifs at hc with h
    · simp at hc; subst hc; exact h
    · rcases List.mem_cons.mp hc with rfl | hc
      · simp
      · exact ih _ (by simp; omega) ch hc

theorem sum_map_countP {α : Type} (p : α → Bool) (ls : List (List α)) :
    (ls.map (List.countP p)).sum = ls.flatten.countP p := by
  rw [List.countP_flatten]

theorem loopBatches_flatten {α : Type} (bs fuel : ℕ) (l : List α) (r : List (List α))
    (h : loopBatches bs fuel l = some r) : r.flatten = l := by
  induction fuel generalizing l r with
  | zero =>
    unfold loopBatches at h
    split_ifs at h with h0
    cases h; simp [h0]
  | succ f ih =>
    unfold loopBatches at h
    split_ifs at h with h0
    · cases h; simp [h0]
    · obtain ⟨r', hr', rfl⟩ := Option.map_eq_some_iff.mp h
      rw [List.flatten_cons, ih _ _ hr', List.take_append_drop]

theorem loopBatches_isSome {α : Type} (bs fuel : ℕ) (hbs : 0 < bs) (l : List α) (hf : l.length ≤ fuel) :
    ∃ r, loopBatches bs fuel l = some r := by
  induction fuel generalizing l with
  | zero =>
    have : l = [] := List.length_eq_zero_iff.mp (by omega)
    exact ⟨[], by simp [loopBatches, this]⟩
  | succ f ih =>
    unfold loopBatches
    split_ifs with h0
    · exact ⟨_, rfl⟩
    · obtain ⟨r, hr⟩ := ih (l.drop bs) (by simp; omega)
      exact ⟨_, by rw [hr]; rfl⟩

theorem loopBatches_zero {α : Type} (fuel : ℕ) (l : List α) (hl : l ≠ []) : loopBatches 0 fuel l = none := by
  induction fuel with
  | zero => simp [loopBatches, hl]
  | succ f ih => simp [loopBatches, hl, ih]

/-! ### Counters -/

theorem pool_count [NeZero K] (thr : Fin K → ℚ) (sc : Schedule) (b : List (Ex K)) :
    (sc.run ((splitArr b (chunksize b.length)).map (computeNumIssues thr))).sum = computeNumIssues thr b := by
  rw [(sc.perm _).sum_eq]
  unfold computeNumIssues splitArr
  rw [sum_map_countP, splitFuel_flatten]

theorem updatePruneCount_eq [NeZero K] (j : Jobs) (s : Inspector K) (b : List (Ex K)) :
    updatePruneCount j s b = { s with pruneCount := s.pruneCount + computeNumIssues s.thr b } := by
  cases j with
  | one => rfl
  | pool sc => unfold updatePruneCount; simp only [pool_count]

theorem fancyAdd_nil (f : Fin K → ℕ) : fancyAdd f [] = f := rfl

theorem fancyAdd_single (f : Fin K → ℕ) (k : Fin K) (v : ℕ) (k' : Fin K) :
    fancyAdd f [(k, v)] k' = f k' + if k = k' then v else 0 := by
  unfold fancyAdd
  simp only [List.foldl_cons, List.foldl_nil, Function.update_apply]
  split_ifs with h1 h2 h2
  · rw [h1]
  · exact absurd h1.symm h2
  · exact absurd h2.symm h1
  · rfl

/-- The counters after a batch handled by one worker. -/
def addCounts [NeZero K] (thr : Fin K → ℚ) (s : Inspector K) (b : List (Ex K)) : Inspector K :=
  { s with
    classCounts := fun k => s.classCounts k + given b k
    normalization := fun k => s.normalization k + b.countP (fun e => decide (e.1 = k) && reaches thr e)
    pruneCounts := fun k => s.pruneCounts k + b.countP (fun e => decide (e.1 = k) && reaches thr e && disagrees e) }

theorem addCounts_nil [NeZero K] (thr : Fin K → ℚ) (s : Inspector K) : addCounts thr s [] = s := by
  unfold addCounts; simp [given]

theorem addCounts_append [NeZero K] (thr : Fin K → ℚ) (s : Inspector K) (a b : List (Ex K)) :
    addCounts thr s (a ++ b) = addCounts thr (addCounts thr s a) b := by
  unfold addCounts; simp [given_append, List.countP_append, Nat.add_assoc]

theorem addCounts_perm [NeZero K] (thr : Fin K → ℚ) (s : Inspector K) {a b : List (Ex K)} (h : a.Perm b) :
    addCounts thr s a = addCounts thr s b := by
  unfold addCounts given; simp only [h.countP_eq]

theorem addCalibrated_short [NeZero K] (thr : Fin K → ℚ) (s : Inspector K) (ch : List (Ex K)) (h : ch.length ≤ 1) :
    addCalibrated thr s ch = addCounts thr s ch := by
  match ch, h with
  | [], _ => rw [addCounts_nil]; rfl
  | [e], _ =>
    unfold addCalibrated addCounts
    simp only [List.map_cons, List.map_nil]
    congr 1
    · funext k
      rw [fancyAdd_single]
      by_cases h : e.1 = k <;> simp [h, toNat, List.countP_cons, Bool.and_assoc]
    · funext k
      rw [fancyAdd_single]
      by_cases h : e.1 = k <;> simp [h, given]
    · funext k
      rw [fancyAdd_single]
      by_cases h : e.1 = k <;> simp [h, toNat, List.countP_cons]
  | _ :: _ :: _, h => simp at h

theorem foldl_addCalibrated_short [NeZero K] (thr : Fin K → ℚ) (s : Inspector K) (ls : List (List (Ex K)))
    (h : ∀ ch ∈ ls, ch.length ≤ 1) : ls.foldl (addCalibrated thr) s = addCounts thr s ls.flatten := by
  induction ls generalizing s with
  | nil => rw [List.flatten_nil, addCounts_nil]; rfl
  | cons ch ls ih =>
    rw [List.foldl_cons, List.flatten_cons, addCounts_append, addCalibrated_short thr s ch (h ch (by simp)),
      ih _ (fun c hc => h c (by simp [hc]))]

theorem updateCalibrated_eq [NeZero K] (j : Jobs) (s : Inspector K) (b : List (Ex K))
    (h : j = .one ∨ b.length < 10000) : updateCalibrated j s b = addCounts s.thr s b := by
  cases j with
  | one => unfold updateCalibrated addCounts; simp only [labelCounts_labelsOf]
  | pool sc =>
    have hb : b.length < 10000 := h.resolve_left (by simp)
    have hc : chunksize b.length = 1 := by unfold chunksize; split_ifs <;> omega
    unfold updateCalibrated
    simp only [hc]
    have hp := sc.perm (splitArr b 1)
    rw [foldl_addCalibrated_short]
    · refine addCounts_perm _ _ ?_
      refine hp.flatten.trans ?_
      unfold splitArr; rw [splitFuel_flatten]
    · intro ch hch
      exact splitFuel_short _ _ le_rfl ch (hp.mem_iff.mp hch)

end Cleanlab.Batched
