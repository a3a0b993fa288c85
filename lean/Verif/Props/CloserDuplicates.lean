import Verif.Props.FartherOutliers
import Verif.Props.Duplicate
import Verif.Props.OutlierCheck

/-!
# C219: near duplicates that get even closer, and atypical predictions that get even more so
-/

namespace Cleanlab.Props

open Np Cleanlab.Knn Cleanlab.Duplicate Cleanlab.OutlierCheck

variable {F : Type} [Field F] [LinearOrder F] [IsStrictOrderedRing F]

/-- The median as the mean of two places of the sorted list. -/
theorem npMedian_eq (A : ArgSort F) (l : List F) (m : F) (h : npMedian A l = some m) :
    ∃ (lo hi : ℕ) (hlo : lo < (sortOn A id l).length) (hhi : hi < (sortOn A id l).length), lo = (l.length - 1) / 2 ∧
      hi = l.length / 2 ∧ m = ((sortOn A id l)[lo] + (sortOn A id l)[hi]) / 2 := by
  have hlen := length_sortOn A id l
  unfold npMedian at h
  dsimp only at h
  split_ifs at h with hodd
  · obtain ⟨h1, h2⟩ := List.getElem?_eq_some_iff.mp h
    refine ⟨l.length / 2, l.length / 2, h1, h1, by omega, rfl, ?_⟩
    rw [h2]
    ring
  · cases ha : (sortOn A id l)[l.length / 2 - 1]? with
    | none => rw [ha] at h; cases h
    | some a =>
      cases hb : (sortOn A id l)[l.length / 2]? with
      | none => rw [ha, hb] at h; cases h
      | some b =>
        rw [ha, hb] at h
        obtain ⟨g1, g2⟩ := List.getElem?_eq_some_iff.mp ha
        obtain ⟨g3, g4⟩ := List.getElem?_eq_some_iff.mp hb
        refine ⟨l.length / 2 - 1, l.length / 2, g1, g3, by omega, rfl, ?_⟩
        rw [g2, g4]
        exact (Option.some.inj h).symm

omit [Field F] [IsStrictOrderedRing F] in
theorem sortOn_mono (A : ArgSort F) (l l' : List F) (h : List.Forall₂ (fun x y => x ≤ y) l' l) (r : ℕ)
    (hr : r < (sortOn A id l).length) (hr' : r < (sortOn A id l').length) : (sortOn A id l')[r] ≤ (sortOn A id l)[r] := by
  by_contra hlt
  have hlt := not_le.mp hlt
  have hs : (sortOn A id l).Pairwise (fun x y => x ≤ y) := sortOn_sorted A id l
  have hs' : (sortOn A id l').Pairwise (fun x y => x ≤ y) := sortOn_sorted A id l'
  set D := (sortOn A id l)[r] with hD
  have h1 : (sortOn A id l').countP (fun x => decide (x ≤ D)) ≤ r := by
    refine countP_le_of_drop _ _ _ (fun x hx => decide_eq_false (fun hxD => ?_))
    have := (sorted_split _ hs' r hr').2 x hx
    exact absurd (lt_of_lt_of_le hlt this) (not_lt.mpr hxD)
  have h2 : r + 1 ≤ (sortOn A id l).countP (fun x => decide (x ≤ D)) := by
    have h3 : ((sortOn A id l).take (r + 1)).countP (fun x => decide (x ≤ D)) = r + 1 := by
      rw [List.countP_eq_length.mpr (fun x hx => decide_eq_true ((sorted_split _ hs r hr).1 x hx)), List.length_take]
      omega
    rw [← h3]
    exact (List.take_sublist _ _).countP_le
  rw [(sortOn_perm A id l').countP_eq] at h1
  rw [(sortOn_perm A id l).countP_eq] at h2
  have h4 : l.countP (fun x => decide (x ≤ D)) ≤ l'.countP (fun x => decide (x ≤ D)) :=
    countP_forall₂ (fun x y => y ≤ x) _ _ (fun x y hxy hx => decide_eq_true (hxy.trans (of_decide_eq_true hx))) _ _ h.flip
  omega

/-- Smaller values have a smaller median. -/
theorem median_mono (A : ArgSort F) (l l' : List F) (h : List.Forall₂ (fun x y => x ≤ y) l' l) (m m' : F)
    (hm : npMedian A l = some m) (hm' : npMedian A l' = some m') : m' ≤ m := by
  obtain ⟨lo, hi, hlo, hhi, e1, e2, e3⟩ := npMedian_eq A l m hm
  obtain ⟨lo', hi', hlo', hhi', e1', e2', e3'⟩ := npMedian_eq A l' m' hm'
  have hl : l'.length = l.length := h.length_eq
  have i1 : lo' = lo := by rw [e1', e1, hl]
  have i2 : hi' = hi := by rw [e2', e2, hl]
  subst i1 i2
  rw [e3, e3']
  have h1 := sortOn_mono A l l' h _ hlo hlo'
  have h2 := sortOn_mono A l l' h _ hhi hhi'
  linarith

omit [Field F] [IsStrictOrderedRing F] in
theorem sortOn_split (A : ArgSort F) (l u v : List F) (hp : l.Perm (v ++ u)) (h : ∀ x ∈ v, ∀ y ∈ u, x ≤ y) :
    sortOn A id l = sortOn A id v ++ sortOn A id u := by
  refine List.Perm.eq_of_pairwise' (show (sortOn A id l).Pairwise (fun x y => x ≤ y) from sortOn_sorted A id l)
    (?_ : List.Pairwise (fun x y => x ≤ y) _) ?_
  · rw [List.pairwise_append]
    exact ⟨sortOn_sorted A id v, sortOn_sorted A id u,
      fun x hx y hy => h x ((mem_sortOn A id v x).mp hx) y ((mem_sortOn A id u y).mp hy)⟩
  · exact (sortOn_perm A id l).trans (hp.trans ((sortOn_perm A id v).append (sortOn_perm A id u)).symm)

/-- Values below a fraction of the median stay below that fraction if they get smaller. -/
theorem median_below (A : ArgSort F) (l l' u v v' : List F) (hp : l.Perm (v ++ u)) (hp' : l'.Perm (v' ++ u))
    (m m' t : F) (hm : npMedian A l = some m) (hm' : npMedian A l' = some m') (hpos : 0 < m) (h1 : t ≤ 1)
    (hu : ∀ x ∈ u, t * m ≤ x) (hv : ∀ x ∈ v, x < t * m) (hlen : v'.length = v.length)
    (hvv : ∀ x' ∈ v', ∃ x ∈ v, x' ≤ x) : ∀ x ∈ v', x < t * m' := by
  have hle : t * m ≤ m := by nlinarith
  have hll : l.length = v.length + u.length := by rw [hp.length_eq, List.length_append]
  have hll' : l'.length = l.length := by rw [hll, hp'.length_eq, List.length_append, hlen]
  have hs := sortOn_split A l u v hp (fun x hx y hy => (hv x hx).le.trans (hu y hy))
  have hs' := sortOn_split A l' u v' hp' (fun x hx y hy => by
    obtain ⟨z, hz, hzx⟩ := hvv x hx
    exact hzx.trans ((hv z hz).le.trans (hu y hy)))
  have hul := length_sortOn A id u
  have hvl := length_sortOn A id v
  have hvl' := length_sortOn A id v'
  obtain ⟨lo, hi, hlo, hhi, e1, e2, e3⟩ := npMedian_eq A l m hm
  obtain ⟨lo', hi', hlo', hhi', e1', e2', e3'⟩ := npMedian_eq A l' m' hm'
  have i1 : lo' = lo := by rw [e1', e1, hll']
  have i2 : hi' = hi := by rw [e2', e2, hll']
  subst i1 i2
  have hsorted : (sortOn A id l).Pairwise (fun x y => x ≤ y) := sortOn_sorted A id l
  have hlohi : (sortOn A id l)[lo'] ≤ (sortOn A id l)[hi'] := sorted_get_le _ hsorted _ _ _ _ (by omega)
  simp only [hs] at e3 hlohi hlo hhi
  simp only [hs'] at e3' hlo' hhi'
  have k1 := hlo
  have k2 := hhi
  have k3 := hlo'
  have k4 := hhi'
  rw [List.length_append] at k1 k2 k3 k4
  have hhige : (sortOn A id v).length ≤ hi' := by
    by_contra hlt
    have hlt := not_le.mp hlt
    have g := hv _ ((mem_sortOn A id v _).mp (List.getElem_mem hlt))
    simp only [List.getElem_append_left hlt] at e3 hlohi
    linarith
  have hb : (sortOn A id v ++ sortOn A id u)[hi'] = (sortOn A id v' ++ sortOn A id u)[hi'] := by
    rw [List.getElem_append_right hhige, List.getElem_append_right (by omega)]
    simp only [hvl, hvl', hlen]
  by_cases hcase : (sortOn A id v).length ≤ lo'
  · have ha : (sortOn A id v ++ sortOn A id u)[lo'] = (sortOn A id v' ++ sortOn A id u)[lo'] := by
      rw [List.getElem_append_right hcase, List.getElem_append_right (by omega)]
      simp only [hvl, hvl', hlen]
    have : m' = m := by rw [e3, e3', ha, hb]
    rw [this]
    intro x hx
    obtain ⟨z, hz, hzx⟩ := hvv x hx
    exact lt_of_le_of_lt hzx (hv z hz)
  · have hlast : lo' + 1 = (sortOn A id v).length := by omega
    have hlt : lo' < (sortOn A id v).length := by omega
    have hlt' : lo' < (sortOn A id v').length := by omega
    rw [← hb, List.getElem_append_left hlt'] at e3'
    rw [List.getElem_append_left hlt] at e3
    generalize (sortOn A id v ++ sortOn A id u)[hi'] = b at e3 e3'
    have ha := hv _ ((mem_sortOn A id v _).mp (List.getElem_mem hlt))
    have haa : (sortOn A id v')[lo'] ≤ (sortOn A id v)[lo'] := by
      obtain ⟨z, hz, hzx⟩ := hvv _ ((mem_sortOn A id v' _).mp (List.getElem_mem hlt'))
      obtain ⟨r, hr, rfl⟩ := List.getElem_of_mem ((mem_sortOn A id v z).mpr hz)
      exact hzx.trans (sorted_get_le _ (sortOn_sorted A id v) _ _ _ _ (by omega))
    intro x hx
    obtain ⟨r, hr, rfl⟩ := List.getElem_of_mem ((mem_sortOn A id v' x).mpr hx)
    have hx' := sorted_get_le _ (sortOn_sorted A id v') r lo' hr hlt' (by omega)
    refine lt_of_le_of_lt hx' ?_
    generalize (sortOn A id v')[lo'] = a' at *
    generalize (sortOn A id v)[lo'] = a at *
    rw [e3'] 
    rw [e3] at ha
    have := mul_le_mul_of_nonneg_right haa (show 0 ≤ 1 - t / 2 by linarith)
    linarith

/-- The rule "below a fraction of the median" selects the same entries after the selected ones got smaller. -/
theorem below_median_same {n : ℕ} (A : ArgSort F) (f f' : Fin n → F) (m m' t : F)
    (hm : npMedian A (List.ofFn f) = some m) (hm' : npMedian A (List.ofFn f') = some m') (hf : ∀ i, 0 ≤ f i)
    (h0 : 0 ≤ t) (h1 : t ≤ 1) (hsame : ∀ i, ¬ f i < t * m → f' i = f i) (hle : ∀ i, f i < t * m → f' i ≤ f i) (i : Fin n) :
    f' i < t * m' ↔ f i < t * m := by
  have hall : ∀ j, f' j ≤ f j := fun j => by
    by_cases h : f j < t * m
    · exact hle j h
    · exact (hsame j h).le
  have hmm : m' ≤ m := by
    refine median_mono A _ _ ?_ m m' hm hm'
    rw [List.ofFn_eq_map, List.ofFn_eq_map, List.forall₂_map_left_iff, List.forall₂_map_right_iff, List.forall₂_same]
    exact fun j _ => hall j
  constructor
  · intro h
    by_contra hn
    rw [hsame i hn] at h
    exact hn (lt_of_lt_of_le h (mul_le_mul_of_nonneg_left hmm h0))
  · intro h
    have hpos : 0 < m := by
      by_contra hneg
      have := mul_nonneg h0 (show 0 ≤ -m by linarith)
      have := hf i
      linarith
    have hperm : ∀ g : Fin n → F, (List.ofFn g).Perm
        (((List.finRange n).filter (fun j => decide (f j < t * m))).map g ++
          ((List.finRange n).filter (fun j => !decide (f j < t * m))).map g) := fun g => by
      rw [List.ofFn_eq_map, ← List.map_append]
      exact ((List.filter_append_perm _ _).symm).map g
    have hu : ((List.finRange n).filter (fun j => !decide (f j < t * m))).map f' =
        ((List.finRange n).filter (fun j => !decide (f j < t * m))).map f :=
      List.map_congr_left (fun j hj => hsame j (by simpa using (List.mem_filter.mp hj).2))
    have hp' := hperm f'
    rw [hu] at hp'
    refine median_below A _ _ _ _ _ (hperm f) hp' m m' t hm hm' hpos h1 ?_ ?_ ?_ ?_ _
      (List.mem_map.mpr ⟨i, List.mem_filter.mpr ⟨List.mem_finRange i, decide_eq_true h⟩, rfl⟩)
    · intro x hx
      obtain ⟨j, hj, rfl⟩ := List.mem_map.mp hx
      simpa using (List.mem_filter.mp hj).2
    · intro x hx
      obtain ⟨j, hj, rfl⟩ := List.mem_map.mp hx
      simpa using (List.mem_filter.mp hj).2
    · rw [List.length_map, List.length_map]
    · intro x hx
      obtain ⟨j, hj, rfl⟩ := List.mem_map.mp hx
      exact ⟨_, List.mem_map.mpr ⟨j, hj, rfl⟩, hall j⟩

/-! ### Atypical predictions -/

/-- **C219**: if the outlier scores that Datalab computed from predicted probabilities get lower for some of the examples
it reported, and stay as they are for all others, it reports the same examples. -/
theorem C219_pred_probs {n : ℕ} (A : ArgSort ℝ) (scores scores' : Fin n → ℝ) (thr : Option ℝ) (r r' : Result n)
    (h : checkPredProbs A scores thr = .ok r) (h' : checkPredProbs A scores' thr = .ok r') (h1 : r.threshold ≤ 1)
    (h0 : ∀ i, 0 ≤ scores i) (hsame : ∀ i, r.flags i = false → scores' i = scores i)
    (hle : ∀ i, r.flags i = true → scores' i ≤ scores i) : r'.flags = r.flags := by
  obtain ⟨e1, e2, -, md, e3, -, -, e4, -⟩ := (C87_pred_probs A scores thr).2 r h
  obtain ⟨-, -, -, md', e3', -, -, e4', -⟩ := (C87_pred_probs A scores' thr).2 r' h'
  rw [e1] at e2 h1
  funext i
  rw [Bool.eq_iff_iff, e4', e4]
  exact below_median_same A scores scores' md md' _ e3 e3' h0 e2 h1
    (fun j hj => hsame j (by rw [← Bool.not_eq_true, e4]; exact hj)) (fun j hj => hle j ((e4 j).mpr hj)) i

/-! ### Near duplicates -/

variable {N : ℕ}

/-- The rows of the graph list other examples with their distances, and start with a nearest one. -/
def ListsNearest (d : Fin N → Fin N → ℚ) (g : Graph N) : Prop :=
  ∀ i, (∀ e ∈ g i, e.1 ≠ i ∧ e.2 = d i e.1) ∧ ∀ e, (g i).head? = some e → ∀ j, j ≠ i → e.2 ≤ d i j

/-- An example is flagged exactly if its nearest neighbour is within the radius. -/
theorem flag_nearest (A : ArgSort ℚ) (d : Fin N → Fin N → ℚ) (g : Graph N) (hsym : ∀ i j, d i j = d j i)
    (hg : ListsNearest d g) (t : ℚ) (r : Report N) (h : findIssues A g t = .ok r) (nn : Fin N → ℚ)
    (hnn : nnDistances g = .ok nn) (i : Fin N) : r.isIssue i = true ↔ nn i < max t 0 * r.median := by
  obtain ⟨e, he, hen⟩ := (nnDistances_ok g nn).mp hnn i
  have hmem : e ∈ g i := List.mem_of_mem_head? he
  rw [(C37_symmetric A g t r h).2.1 i]
  constructor
  · intro hne
    obtain ⟨j, hj⟩ := List.exists_mem_of_ne_nil _ hne
    rw [← hen]
    rcases (C37_sets A g t r h i j).mp hj with ⟨x, hx, hlt⟩ | ⟨x, hx, hlt⟩
    · obtain ⟨h1, h2⟩ := (hg i).1 _ hx
      exact lt_of_le_of_lt ((hg i).2 e he j h1) (by rw [← h2]; exact hlt)
    · obtain ⟨h1, h2⟩ := (hg j).1 _ hx
      exact lt_of_le_of_lt ((hg i).2 e he j (Ne.symm h1)) (by rw [hsym, ← h2]; exact hlt)
  · intro hlt
    exact List.ne_nil_of_mem ((C37_sets A g t r h i e.1).mpr (Or.inl ⟨e.2, hmem, by rw [hen]; exact hlt⟩))

/-- **C219**: if examples that Datalab reported as near duplicates move even closer to their nearest neighbours, and the
nearest neighbours of all other examples stay as far away as they are, it reports the same examples. -/
theorem C219_duplicates (A : ArgSort ℚ) (d d' : Fin N → Fin N → ℚ) (g g' : Graph N) (hsym : ∀ i j, d i j = d j i)
    (hsym' : ∀ i j, d' i j = d' j i) (hpos : ∀ i j, 0 ≤ d i j) (hg : ListsNearest d g) (hg' : ListsNearest d' g')
    (t : ℚ) (ht : t ≤ 1) (r r' : Report N) (h : findIssues A g t = .ok r) (h' : findIssues A g' t = .ok r')
    (hsame : ∀ i e e', r.isIssue i = false → (g i).head? = some e → (g' i).head? = some e' → e'.2 = e.2)
    (hle : ∀ i e e', r.isIssue i = true → (g i).head? = some e → (g' i).head? = some e' → e'.2 ≤ e.2) :
    r'.isIssue = r.isIssue := by
  obtain ⟨nn, med, hnn, hmed, hmax, -, -, -⟩ := findIssues_run A g t r h
  obtain ⟨nn', med', hnn', hmed', hmax', -, -, -⟩ := findIssues_run A g' t r' h'
  have hrule := flag_nearest A d g hsym hg t r h nn hnn
  have hrule' := flag_nearest A d' g' hsym' hg' t r' h' nn' hnn'
  have hh := (nnDistances_ok g nn).mp hnn
  have hh' := (nnDistances_ok g' nn').mp hnn'
  have hs : ∀ i, r.isIssue i = false → nn' i = nn i := fun i hi => by
    obtain ⟨e, he, hen⟩ := hh i
    obtain ⟨e', he', hen'⟩ := hh' i
    rw [← hen, ← hen', hsame i e e' hi he he']
  have hl : ∀ i, r.isIssue i = true → nn' i ≤ nn i := fun i hi => by
    obtain ⟨e, he, hen⟩ := hh i
    obtain ⟨e', he', hen'⟩ := hh' i
    rw [← hen, ← hen']
    exact hle i e e' hi he he'
  have hall : ∀ i, nn' i ≤ nn i := fun i => by
    cases hi : r.isIssue i with
    | true => exact hl i hi
    | false => exact (hs i hi).le
  have hnn0 : ∀ i, 0 ≤ nn i := fun i => by
    obtain ⟨e, he, hen⟩ := hh i
    rw [← hen, ((hg i).1 e (List.mem_of_mem_head? he)).2]
    exact hpos _ _
  have ht0 : 0 ≤ max t 0 := le_max_right _ _
  have ht1 : max t 0 ≤ 1 := max_le ht zero_le_one
  have hmm : med' ≤ med := by
    refine median_mono A _ _ ?_ med med' hmed hmed'
    rw [List.ofFn_eq_map, List.ofFn_eq_map, List.forall₂_map_left_iff, List.forall₂_map_right_iff, List.forall₂_same]
    exact fun j _ => hall j
  have hrr : r'.median ≤ r.median := by rw [hmax, hmax']; exact max_le_max_right _ hmm
  funext i
  rw [Bool.eq_iff_iff]
  constructor
  · intro hi
    by_contra hn
    have hn' := Bool.not_eq_true _ ▸ hn
    have h1 := (hrule' i).mp hi
    rw [hs i hn'] at h1
    exact hn ((hrule i).mpr (lt_of_lt_of_le h1 (mul_le_mul_of_nonneg_left hrr ht0)))
  · intro hi
    refine (hrule' i).mpr ?_
    have h1 := (hrule i).mp hi
    rcases le_or_gt epsilon med with hcase | hcase
    · have hr : r.median = med := by rw [hmax, max_eq_left hcase]
      rw [hr] at h1
      refine lt_of_lt_of_le ((below_median_same A nn nn' med med' _ hmed hmed' hnn0 ht0 ht1 (fun j hj => ?_)
        (fun j hj => ?_) i).mpr h1) (mul_le_mul_of_nonneg_left (by rw [hmax']; exact le_max_left _ _) ht0)
      · refine hs j ?_
        rw [← Bool.not_eq_true, hrule, hr]
        exact hj
      · refine hl j ?_
        rw [hrule, hr]
        exact hj
    · have hr : r'.median = r.median := by
        rw [hmax, hmax', max_eq_right hcase.le, max_eq_right (hmm.trans hcase.le)]
      rw [hr]
      exact lt_of_le_of_lt (hl i hi) h1

/-! ### Examples -/

/-- Positions on a line, the first of which varies. -/
def lineAt (x : ℚ) : Fin 4 → ℚ := ![x, 1 / 10, 10, 20]

/-- The nearest neighbour of each of them. -/
def lineGraph (x : ℚ) : Graph 4 := ![[(1, 1 / 10 - x)], [(0, 1 / 10 - x)], [(1, 99 / 10)], [(2, 10)]]

theorem lineGraph_nearest (x : ℚ) (h0 : 0 ≤ x) (h1 : x ≤ 1 / 10) :
    ListsNearest (fun i j => |lineAt x i - lineAt x j|) (lineGraph x) := by
  intro i
  constructor
  · intro e he
    fin_cases i
    · obtain rfl := List.mem_singleton.mp he
      exact ⟨(by decide : (1 : Fin 4) ≠ 0), by show 1 / 10 - x = |x - 1 / 10|; rw [abs_of_nonpos (by linarith)]; ring⟩
    · obtain rfl := List.mem_singleton.mp he
      exact ⟨(by decide : (0 : Fin 4) ≠ 1), by show 1 / 10 - x = |1 / 10 - x|; rw [abs_of_nonneg (by linarith)]⟩
    · obtain rfl := List.mem_singleton.mp he
      exact ⟨by decide, by show (99 / 10 : ℚ) = |10 - 1 / 10|; rw [abs_of_nonneg (by norm_num)]; norm_num⟩
    · obtain rfl := List.mem_singleton.mp he
      exact ⟨by decide, by show (10 : ℚ) = |20 - 10|; rw [abs_of_nonneg (by norm_num)]; norm_num⟩
  · intro e he j hj
    unfold lineGraph at he
    unfold lineAt
    dsimp only
    rw [le_abs]
    fin_cases i <;> rw [← Option.some.inj he] <;> fin_cases j <;> simp at hj ⊢ <;> first | (left; linarith) | (right; linarith)

/-- Two near duplicates among four examples, wherever between 0 and 1/10 the first of them lies. -/
example (A : ArgSort ℚ) (x : ℚ) (h0 : 0 ≤ x) (h1 : x ≤ 1 / 10) : ∃ r, findIssues A (lineGraph x) (13 / 100) = .ok r ∧
    ∀ i, r.isIssue i = decide (i = 0 ∨ i = 1) := by
  have hnn : ∀ z : ℚ, nnDistances (lineGraph z) = .ok ![1 / 10 - z, 1 / 10 - z, 99 / 10, 10] := fun z => by
    rw [nnDistances_ok]
    intro i
    fin_cases i <;> exact ⟨_, rfl, rfl⟩
  have hex := fun z => C37_median A (lineGraph z) (13 / 100) (by norm_num) _ ((nnDistances_ok _ _).mp (hnn z))
  obtain ⟨r0, hr0⟩ : ∃ r, findIssues A (lineGraph 0) (13 / 100) = .ok r := by
    obtain ⟨r, _, h, _⟩ := hex 0
    exact ⟨r, h⟩
  obtain ⟨r, hr⟩ : ∃ r, findIssues A (lineGraph x) (13 / 100) = .ok r := by
    obtain ⟨r, _, h, _⟩ := hex x
    exact ⟨r, h⟩
  have hs0 : sortOn A id (List.ofFn (![1 / 10 - 0, 1 / 10 - 0, 99 / 10, 10] : Fin 4 → ℚ)) = [1 / 10, 1 / 10, 99 / 10, 10] := by
    refine List.Perm.eq_of_pairwise' (show (sortOn A id _).Pairwise (fun x y => x ≤ y) from sortOn_sorted A id _)
      (show List.Pairwise (fun x y : ℚ => x ≤ y) _ by decide +kernel) ((sortOn_perm A id _).trans ?_)
    exact List.Perm.of_eq (by decide +kernel)
  have hm0 : r0.median = 5 := by
    obtain ⟨nn, med, e1, e2, e3, -⟩ := findIssues_run A _ _ _ hr0
    rw [hnn 0] at e1
    rw [← Except.ok.inj e1] at e2
    unfold npMedian at e2
    rw [hs0] at e2
    have : med = 5 := (Option.some.inj e2).symm.trans (by norm_num)
    rw [e3, this]
    decide +kernel
  have hf0 : ∀ i, r0.isIssue i = decide (i = 0 ∨ i = 1) := by
    intro i
    rw [Bool.eq_iff_iff, flag_nearest A _ _ (fun i j => abs_sub_comm _ _) (lineGraph_nearest 0 le_rfl (by norm_num)) _ _ hr0 _
      (hnn 0), hm0]
    fin_cases i <;> decide +kernel
  refine ⟨r, hr, fun i => ?_⟩
  rw [← hf0 i]
  refine congrFun (C219_duplicates A _ _ _ _ (fun i j => abs_sub_comm _ _) (fun i j => abs_sub_comm _ _)
    (fun i j => abs_nonneg _) (lineGraph_nearest 0 le_rfl (by norm_num)) (lineGraph_nearest x h0 h1) _ (by norm_num) r0 r
    hr0 hr (fun j e e' hj he he' => ?_) (fun j e e' hj he he' => ?_)) i
  · rw [hf0] at hj
    revert hj
    fin_cases j
    · intro hj; exact absurd hj (by decide)
    · intro hj; exact absurd hj (by decide)
    · intro _; rw [← Option.some.inj he, ← Option.some.inj he']
    · intro _; rw [← Option.some.inj he, ← Option.some.inj he']
  · fin_cases j <;> rw [← Option.some.inj he, ← Option.some.inj he'] <;> simp [h0]

/-- One atypical prediction among three, however atypical. -/
example (A : ArgSort ℝ) (x : ℝ) (h1 : x ≤ 1 / 10) :
    ∃ r, checkPredProbs A (![x, 1, 1] : Fin 3 → ℝ) none = .ok r ∧ ∀ i, r.flags i = decide (i = 0) := by
  have hex : ∀ z : ℝ, ∃ r, checkPredProbs A (![z, 1, 1] : Fin 3 → ℝ) none = .ok r := fun z => by
    obtain ⟨m, hm⟩ := Option.isSome_iff_exists.mp (npMedian_isSome A (List.ofFn (![z, 1, 1] : Fin 3 → ℝ)) (by simp))
    unfold checkPredProbs
    rw [hm]
    dsimp only
    rw [if_neg (by unfold defaultPredProbs; norm_num)]
    exact ⟨_, rfl⟩
  obtain ⟨r0, hr0⟩ := hex (1 / 10)
  obtain ⟨r, hr⟩ := hex x
  obtain ⟨e1, -, -, md, e3, -, -, e4, -⟩ := (C87_pred_probs A _ none).2 r0 hr0
  have hs0 : sortOn A id (List.ofFn (![1 / 10, 1, 1] : Fin 3 → ℝ)) = [1 / 10, 1, 1] := by
    refine List.Perm.eq_of_pairwise' (show (sortOn A id _).Pairwise (fun x y => x ≤ y) from sortOn_sorted A id _)
      (show List.Pairwise (fun x y : ℝ => x ≤ y) _ by simp; norm_num) ((sortOn_perm A id _).trans ?_)
    exact List.Perm.of_eq (by simp)
  have hmd : md = 1 := by
    unfold npMedian at e3
    rw [hs0] at e3
    exact (Option.some.inj e3).symm
  have hf0 : ∀ i, r0.flags i = decide (i = 0) := by
    intro i
    rw [Bool.eq_iff_iff, e4, hmd]
    fin_cases i <;> simp <;> norm_num
  refine ⟨r, hr, fun i => ?_⟩
  rw [← hf0 i]
  refine congrFun (C219_pred_probs A _ _ none r0 r hr0 hr (by rw [e1]; norm_num) (fun i => ?_) (fun j hj => ?_)
    (fun j _ => ?_)) i
  · fin_cases i <;> simp
  · rw [hf0] at hj
    revert hj
    fin_cases j
    · intro hj; exact absurd hj (by decide)
    · intro _; rfl
    · intro _; rfl
  · fin_cases j
    · simpa using h1
    · exact le_rfl
    · exact le_rfl

end Cleanlab.Props
