import Verif.Model.KnnBuild
import Verif.Props.KnnGraph
import Mathlib.Tactic.IntervalCases

/-!
# C108: the graph of nearest neighbours built from the features
-/

namespace Cleanlab.Props

open Np Cleanlab.Knn

variable {N : ℕ}

/-! ### Rows of the sparse matrix -/

theorem flatten_chunk {α : Type} (K : ℕ) (L : List (List α)) (hL : ∀ r ∈ L, r.length = K) (i : ℕ) (hi : i < L.length) :
    (L.flatten.drop (i * K)).take K = L[i] := by
  induction L generalizing i with
  | nil => simp at hi
  | cons r L ih =>
    have hr := hL r List.mem_cons_self
    cases i with
    | zero => simp [← hr]
    | succ i =>
      rw [List.flatten_cons, Nat.succ_mul, Nat.add_comm, ← List.drop_drop, List.drop_append_of_le_length (by omega),
        List.drop_eq_nil_of_le (as := r) (by omega), List.nil_append, List.getElem_cons_succ]
      exact ih (fun r hr => hL r (List.mem_cons_of_mem _ hr)) i (by simpa using hi)

theorem flatMap_chunk {α : Type} (K : ℕ) (f : Fin N → List α) (hf : ∀ p, (f p).length = K) (p : Fin N) :
    (((List.finRange N).flatMap f).drop (p * K)).take K = f p := by
  rw [List.flatMap_def, flatten_chunk K _ _ p (by simp)]
  · simp
  · intro r hr
    obtain ⟨q, _, rfl⟩ := List.mem_map.mp hr
    exact hf q

theorem length_flatMap_const {α : Type} (K : ℕ) (f : Fin N → List α) (hf : ∀ p, (f p).length = K) :
    ((List.finRange N).flatMap f).length = N * K := by
  rw [List.length_flatMap]
  simp [hf, List.map_const', List.sum_replicate]

theorem zip_flatMap {α β : Type} (l : List (Fin N)) (f : Fin N → List (α × β)) :
    (l.flatMap (fun p => (f p).map Prod.fst)).zip (l.flatMap (fun p => (f p).map Prod.snd)) = l.flatMap f := by
  induction l with
  | nil => rfl
  | cons a l ih =>
    rw [List.flatMap_cons, List.flatMap_cons, List.flatMap_cons, List.zip_append (by simp), ih]
    congr 1
    exact (List.zip_of_prod rfl rfl).symm

/-- Row `p` of the matrix built from the rows of `g`. -/
theorem row_flattenGraph (K : ℕ) (g : Graph N) (hg : ∀ p, (g p).length = K) (p : Fin N) :
    (flattenGraph g ((List.range (N + 1)).map (fun i => i * K))).row p = g p := by
  unfold CsrGraph.row flattenGraph
  dsimp only
  rw [List.getElem?_map, List.getElem?_map, List.getElem?_range (by omega), List.getElem?_range (by omega), zip_flatMap]
  dsimp only [Option.map]
  rw [← flatMap_chunk K g hg p, List.drop_take, Nat.succ_mul]
  congr 1
  omega

/-- **C108**: row `p` of the constructed matrix holds exactly the neighbours the index returned for point `p`, in that order. -/
theorem C108_rows (K : ℕ) (g : Graph N) (hg : ∀ p, (g p).length = K) (p : Fin N) :
    (constructGraph K g).row p = g p := row_flattenGraph K g hg p

/-! ### The correction, row by row -/

theorem correctDuplicates_rows (S : ArgSort (Fin N)) (B : ArgSort Bool) (k : ℕ) (g : Graph N) (sets : List (List (Fin N)))
    (hdis : sets.Pairwise List.Disjoint) (hsets : ∀ s ∈ sets, s.Nodup ∧ 2 ≤ s.length)
    (hg : ∀ p, (g p).length = k ∧ ((g p).map Prod.fst).Nodup ∧ p ∉ (g p).map Prod.fst) :
    ∃ g', correctDuplicates S B k g sets = .ok g' ∧
      (∀ s ∈ sets, ∀ p ∈ s, ∃ i, ∃ hi : i < s.length, p = s[i] ∧ correctRow S B k s i (g p) = .ok (g' p)) ∧
      ∀ q, (∀ s ∈ sets, q ∉ s) → g' q = g q := by
  suffices h : ∀ h : Graph N, (∀ s ∈ sets, ∀ p ∈ s, h p = g p) →
      ∃ g', correctDuplicates S B k h sets = .ok g' ∧
        (∀ s ∈ sets, ∀ p ∈ s, ∃ i, ∃ hi : i < s.length, p = s[i] ∧ correctRow S B k s i (g p) = .ok (g' p)) ∧
        ∀ q, (∀ s ∈ sets, q ∉ s) → g' q = h q from h g (fun _ _ _ _ => rfl)
  induction sets with
  | nil => exact fun h _ => ⟨h, rfl, by simp, fun _ _ => rfl⟩
  | cons s sets ih =>
    intro h hh
    rw [List.pairwise_cons] at hdis
    obtain ⟨hnd, h2⟩ := hsets s List.mem_cons_self
    obtain ⟨h', e1, e2, e3⟩ := correctSet_fold S B k h s
      (fun p r => ∃ i, ∃ hi : i < s.length, p = s[i] ∧ correctRow S B k s i (g p) = .ok r) s.zipIdx
      (by simpa using hnd) (fun x hx => by
        obtain ⟨p, i⟩ := x
        obtain ⟨hi, hpi⟩ := List.mem_zipIdx' hx
        simp only at hpi ⊢
        rw [hh s List.mem_cons_self p (hpi ▸ List.getElem_mem hi)]
        obtain ⟨r, hr, _⟩ := correctRow_corrected S B k s hnd h2 i hi (g p) (hg _).1 (hg _).2.1 (hpi ▸ (hg p).2.2)
        exact ⟨r, hr, i, hi, hpi, hr⟩) h
    rw [List.zipIdx_map_fst] at e3
    have hdisj : ∀ t ∈ sets, ∀ p ∈ t, p ∉ s := fun t ht p hp hps => hdis.1 t ht hps hp
    obtain ⟨g', f1, f2, f3⟩ := ih hdis.2 (fun t ht => hsets t (List.mem_cons_of_mem _ ht)) h' (fun t ht p hp => by
      rw [e3 p (hdisj t ht p hp)]
      exact hh t (List.mem_cons_of_mem _ ht) p hp)
    refine ⟨g', ?_, ?_, ?_⟩
    · unfold correctDuplicates
      rw [List.foldlM_cons]
      have : correctSet S B k h s = .ok h' := e1
      rw [this]
      exact f1
    · intro t ht p hp
      rcases List.mem_cons.mp ht with rfl | ht
      · rw [f3 p (fun u hu hpu => hdisj u hu p hpu hp)]
        obtain ⟨i, hi, rfl⟩ := List.mem_iff_getElem.mp hp
        exact e2 (t[i], i) (by rw [List.mk_mem_zipIdx_iff_getElem?]; exact List.getElem?_eq_getElem hi)
      · exact f2 t ht p hp
    · intro q hq
      rw [f3 q (fun t ht => hq t (List.mem_cons_of_mem _ ht)), e3 q (hq s List.mem_cons_self)]

/-- The rows list `k` distinct other points. -/
def ListsOthers (k : ℕ) (g : Graph N) : Prop :=
  ∀ p, (g p).length = k ∧ ((g p).map Prod.fst).Nodup ∧ p ∉ (g p).map Prod.fst

/-- The points with the features of `p`. -/
def twins {X : Type} [DecidableEq X] (features : Fin N → X) (p : Fin N) : List (Fin N) :=
  (List.finRange N).filter (fun i => features i = features p)

theorem mem_duplicateSets {X : Type} [DecidableEq X] (features : Fin N → X) (values : List X)
    (hall : ∀ i, features i ∈ values) (p : Fin N) :
    (∀ s ∈ duplicateSets features values, p ∈ s → s = twins features p) ∧
      ((∃ s ∈ duplicateSets features values, p ∈ s) ↔ 1 < (twins features p).length) := by
  have h1 : ∀ s ∈ duplicateSets features values, p ∈ s → s = twins features p := by
    intro s hs hp
    obtain ⟨v, _, rfl⟩ := List.mem_map.mp (List.mem_filter.mp hs).1
    simp only [List.mem_filter, decide_eq_true_eq] at hp
    unfold twins
    rw [hp.2]
  refine ⟨h1, fun ⟨s, hs, hp⟩ => ?_, fun h => ⟨twins features p, ?_, by simp [twins]⟩⟩
  · rw [← h1 s hs hp]
    exact of_decide_eq_true (List.mem_filter.mp hs).2
  · exact List.mem_filter.mpr ⟨List.mem_map_of_mem (hall p), decide_eq_true h⟩

/-- The corrected matrix, row by row: a point with duplicates gets the row `correctRow` builds, the others keep theirs. -/
theorem correctGraph_rows {X : Type} [DecidableEq X] (S : ArgSort (Fin N)) (B : ArgSort Bool) (features : Fin N → X)
    (values : List X) (hnd : values.Nodup) (hall : ∀ i, features i ∈ values) (k : ℕ) (g : Graph N) (hg : ListsOthers k g)
    (hN : 0 < N) :
    ∃ a, correctGraph S B features values (constructGraph k g) = .ok a ∧
      a.indptr = (constructGraph k g).indptr ∧
      ∀ p : Fin N, (a.row p).length = k ∧
        ((twins features p).length ≤ 1 → a.row p = g p) ∧
        (1 < (twins features p).length → ∃ i, ∃ hi : i < (twins features p).length, p = (twins features p)[i] ∧
          correctRow S B k (twins features p) i (g p) = .ok (a.row p)) := by
  have hl : ∀ p, (g p).length = k := fun p => (hg p).1
  obtain ⟨hd1, hd2, _⟩ := C36_duplicate_sets features values hnd hall
  obtain ⟨g', e1, e2, e3⟩ := correctDuplicates_rows S B k g _ hd1 hd2 hg
  have hmem := mem_duplicateSets features values hall
  have hlen : ∀ p, (g' p).length = k := by
    intro p
    by_cases hp : ∃ s ∈ duplicateSets features values, p ∈ s
    · obtain ⟨s, hs, hps⟩ := hp
      obtain ⟨i, hi, hpi, hr⟩ := e2 s hs p hps
      obtain ⟨r, hr', hc⟩ := correctRow_corrected S B k s (hd2 s hs).1 (hd2 s hs).2 i hi (g p) (hg p).1 (hg p).2.1
        (hpi ▸ (hg p).2.2)
      rw [hr] at hr'
      rw [Except.ok.inj hr']
      exact hc.length
    · rw [e3 p (fun s hs hps => hp ⟨s, hs, hps⟩)]
      exact hl p
  have hdl : (constructGraph k g).data.length = N * k := length_flatMap_const k _ (fun p => by simp [hl p])
  have hil : (constructGraph k g).indices.length = N * k := length_flatMap_const k _ (fun p => by simp [hl p])
  have hdiv : N * k / N = k := Nat.mul_div_cancel_left k hN
  have hrd : reshapeRows N (constructGraph k g).data = .ok (fun i => ((constructGraph k g).data.drop (i * k)).take k) := by
    unfold reshapeRows
    rw [if_neg (by rw [hdl]; simp; omega), hdl, hdiv]
  have hri : reshapeRows N (constructGraph k g).indices =
      .ok (fun i => ((constructGraph k g).indices.drop (i * k)).take k) := by
    unfold reshapeRows
    rw [if_neg (by rw [hil]; simp; omega), hil, hdiv]
  refine ⟨flattenGraph g' (constructGraph k g).indptr, ?_, rfl, fun p => ?_⟩
  · unfold correctGraph
    rw [hrd, hri, hdl, hdiv]
    dsimp only [bind, Except.bind, pure, Except.pure]
    have : (fun p : Fin N => (((constructGraph k g).indices.drop (p * k)).take k).zip
        (((constructGraph k g).data.drop (p * k)).take k)) = g := by
      funext p
      have h1 := flatMap_chunk k (fun p => (g p).map Prod.fst) (fun p => by simp [hl p]) p
      have h2 := flatMap_chunk k (fun p => (g p).map Prod.snd) (fun p => by simp [hl p]) p
      unfold constructGraph flattenGraph
      dsimp only
      rw [h1, h2]
      exact (List.zip_of_prod rfl rfl).symm
    rw [this, e1]
  · have hrow : (flattenGraph g' (constructGraph k g).indptr).row p = g' p := row_flattenGraph k g' hlen p
    rw [hrow]
    refine ⟨hlen p, fun h => ?_, fun h => ?_⟩
    · exact e3 p (fun s hs hps => by
        have := (hmem p).2.mp ⟨s, hs, hps⟩
        omega)
    · obtain ⟨s, hs, hps⟩ := (hmem p).2.mpr h
      obtain ⟨i, hi, hpi, hr⟩ := e2 s hs p hps
      obtain rfl := (hmem p).1 s hs hps
      exact ⟨i, hi, hpi, hr⟩

/-- Entries of a corrected row: `Corrected` in terms of the features. -/
theorem correctGraph_corrected {X : Type} [DecidableEq X] (S : ArgSort (Fin N)) (B : ArgSort Bool) (features : Fin N → X)
    (values : List X) (hnd : values.Nodup) (hall : ∀ i, features i ∈ values) (k : ℕ) (g : Graph N) (hg : ListsOthers k g)
    (hN : 0 < N) :
    ∃ a, correctGraph S B features values (constructGraph k g) = .ok a ∧
      ∀ p : Fin N, ((twins features p).length ≤ 1 → a.row p = g p) ∧
        (1 < (twins features p).length → Corrected k (twins features p) p (g p) (a.row p)) := by
  obtain ⟨a, h1, _, h2⟩ := correctGraph_rows S B features values hnd hall k g hg hN
  refine ⟨a, h1, fun p => ⟨(h2 p).2.1, fun h => ?_⟩⟩
  obtain ⟨i, hi, hpi, hr⟩ := (h2 p).2.2 h
  obtain ⟨r, hr', hc⟩ := correctRow_corrected S B k (twins features p) ((List.nodup_finRange N).filter _) h i hi (g p)
    (hg p).1 (hg p).2.1 (hpi ▸ (hg p).2.2)
  rw [hr] at hr'
  rw [Except.ok.inj hr']
  rwa [← hpi] at hc

theorem mem_twins {X : Type} [DecidableEq X] (features : Fin N → X) (p q : Fin N) :
    q ∈ twins features p ↔ features q = features p := by simp [twins]

theorem nodup_twins {X : Type} [DecidableEq X] (features : Fin N → X) (p : Fin N) : (twins features p).Nodup :=
  (List.nodup_finRange N).filter _

/-- A corrected row lists every other member of the set, unless there are too many of them. -/
theorem Corrected.all_listed {k : ℕ} {dups : List (Fin N)} {p : Fin N} {row row' : List (Fin N × ℚ)}
    (h : Corrected k dups p row row') (hp : p ∈ dups) (hk : dups.length ≤ k + 1) (q : Fin N)
    (hq : q ∈ dups) (hqp : q ≠ p) : (q, 0) ∈ row' := by
  have hinc : min (dups.length - 1) k = dups.length - 1 := by omega
  have hfront := h.front
  rw [hinc] at hfront
  have hsub : (row'.take (dups.length - 1)).map Prod.fst ⊆ dups.erase p := by
    intro x hx
    obtain ⟨e, he, rfl⟩ := List.mem_map.mp hx
    refine (List.mem_erase_of_ne ?_).mpr (hfront e he).1
    rintro hep
    exact h.noSelf (hep ▸ List.mem_map_of_mem (List.mem_of_mem_take he))
  have hnd' : ((row'.take (dups.length - 1)).map Prod.fst).Nodup :=
    ((List.take_sublist _ _).map Prod.fst).nodup h.nodup
  have hperm : ((row'.take (dups.length - 1)).map Prod.fst).Perm (dups.erase p) := by
    refine List.Subperm.perm_of_length_le (List.subperm_of_subset hnd' hsub) ?_
    rw [List.length_erase_of_mem hp, List.length_map, List.length_take, h.length]
    omega
  obtain ⟨e, he, rfl⟩ := List.mem_map.mp (hperm.mem_iff.mpr ((List.mem_erase_of_ne hqp).mpr hq))
  have := (hfront e he).2
  rw [← this]
  exact List.mem_of_mem_take he

/-- **C108**: whatever rows of `k` distinct other points the index returned, the corrected graph lists every exact duplicate of
a point at distance 0, only exact duplicates if there are `k` or more of them, and otherwise only entries of the index; the
rows of points without duplicates are those of the index. -/
theorem C108_duplicates {X : Type} [DecidableEq X] (S : ArgSort (Fin N)) (B : ArgSort Bool) (features : Fin N → X)
    (values : List X) (hnd : values.Nodup) (hall : ∀ i, features i ∈ values) (k : ℕ) (g : Graph N) (hg : ListsOthers k g)
    (hN : 0 < N) :
    ∃ a, correctGraph S B features values (constructGraph k g) = .ok a ∧ ListsOthers k (fun p => a.row p) ∧
      ∀ p q : Fin N, p ≠ q →
        (features q = features p → (twins features p).length ≤ k + 1 → (q, 0) ∈ a.row p) ∧
        (k + 1 ≤ (twins features p).length → ∀ e ∈ a.row p, features e.1 = features p ∧ e.2 = 0) ∧
        (∀ e ∈ a.row p, features e.1 = features p → e.2 = 0) ∧
        (∀ e ∈ a.row p, features e.1 ≠ features p → e ∈ g p) ∧
        ((twins features p).length = 1 → a.row p = g p) := by
  obtain ⟨a, h1, h2⟩ := correctGraph_corrected S B features values hnd hall k g hg hN
  have hpos : ∀ p, 1 ≤ (twins features p).length := fun p =>
    List.length_pos_of_mem ((mem_twins features p p).mpr rfl)
  have hone : ∀ p q, p ≠ q → features q = features p → 1 < (twins features p).length := by
    intro p q hpq h
    by_contra hlt
    have hsub : [p, q] ⊆ twins features p := by
      intro x hx
      rw [mem_twins]
      rcases List.mem_pair.mp hx with rfl | rfl
      · rfl
      · exact h
    have := (List.subperm_of_subset (by simp [hpq]) hsub).length_le
    simp at this
    omega
  refine ⟨a, h1, fun p => ?_, fun p q hpq => ⟨?_, ?_, ?_, ?_, ?_⟩⟩
  · by_cases h : (twins features p).length ≤ 1
    · dsimp only
      rw [(h2 p).1 h]
      exact hg p
    · have hc := (h2 p).2 (by omega)
      exact ⟨hc.length, hc.nodup, hc.noSelf⟩
  · intro hf hk
    exact ((h2 p).2 (hone p q hpq hf)).all_listed ((mem_twins features p p).mpr rfl) hk q
      ((mem_twins features p q).mpr hf) (Ne.symm hpq)
  · intro hk e he
    rcases Nat.eq_zero_or_pos k with rfl | hk0
    · have : (a.row p).length = 0 := by
        by_cases h : (twins features p).length ≤ 1
        · rw [(h2 p).1 h]; exact (hg p).1
        · exact ((h2 p).2 (by omega)).length
      rw [List.length_eq_zero_iff.mp this] at he
      simp at he
    · have hc := (h2 p).2 (by omega)
      have hf := hc.front
      rw [show min ((twins features p).length - 1) k = k by omega, List.take_of_length_le (by rw [hc.length])] at hf
      rw [← mem_twins]
      exact hf e he
  · intro e he hf
    by_cases h : (twins features p).length ≤ 1
    · have hep : e.1 ≠ p := by
        rintro hep
        rw [(h2 p).1 h] at he
        exact (hg p).2.2 (List.mem_map.mpr ⟨e, he, hep⟩)
      have := hone p e.1 (Ne.symm hep) hf
      omega
    · have hc := (h2 p).2 (by omega)
      rw [← List.take_append_drop (min ((twins features p).length - 1) k) (a.row p), List.mem_append] at he
      rcases he with he | he
      · exact (hc.front e he).2
      · exact absurd ((mem_twins features p e.1).mpr hf) (hc.back e he).2
  · intro e he hf
    by_cases h : (twins features p).length ≤ 1
    · rwa [(h2 p).1 h] at he
    · have hc := (h2 p).2 (by omega)
      rw [← List.take_append_drop (min ((twins features p).length - 1) k) (a.row p), List.mem_append] at he
      rcases he with he | he
      · exact absurd ((mem_twins features p e.1).mp (hc.front e he).1) hf
      · exact (hc.back e he).1
  · intro h
    exact (h2 p).1 (by omega)

/-! ### Nearest neighbours -/

/-- The rows list `k` nearest other points with their distances `d`. -/
structure IsNearest (d : Fin N → Fin N → ℚ) (k : ℕ) (g : Graph N) : Prop where
  lists : ListsOthers k g
  dist : ∀ p, ∀ e ∈ g p, e.2 = d p e.1
  nearest : ∀ p, ∀ e ∈ g p, ∀ q, q ≠ p → q ∉ (g p).map Prod.fst → e.2 ≤ d p q

/-- **C108**: if the index is exact then so is the corrected graph: the correction neither invents distances nor drops a point
that is nearer than one it keeps. -/
theorem C108_exact {X : Type} [DecidableEq X] (S : ArgSort (Fin N)) (B : ArgSort Bool) (features : Fin N → X)
    (values : List X) (hnd : values.Nodup) (hall : ∀ i, features i ∈ values) (d : Fin N → Fin N → ℚ)
    (hd : ∀ p q, 0 ≤ d p q) (hd0 : ∀ p q, features p = features q → d p q = 0) (k : ℕ) (g : Graph N)
    (hg : IsNearest d k g) (hN : 0 < N) :
    ∃ a, correctGraph S B features values (constructGraph k g) = .ok a ∧ IsNearest d k (fun p => a.row p) := by
  obtain ⟨a, h1, h2⟩ := correctGraph_corrected S B features values hnd hall k g hg.lists hN
  obtain ⟨a', h1', h3, _⟩ := C108_duplicates S B features values hnd hall k g hg.lists hN
  rw [h1] at h1'
  obtain rfl := Except.ok.inj h1'
  refine ⟨a, h1, h3, fun p e he => ?_, fun p e he q hqp hq => ?_⟩
  · change e ∈ a.row p at he
    by_cases h : (twins features p).length ≤ 1
    · rw [(h2 p).1 h] at he
      exact hg.dist p e he
    · have hc := (h2 p).2 (by omega)
      rw [← List.take_append_drop (min ((twins features p).length - 1) k) (a.row p), List.mem_append] at he
      rcases he with he | he
      · rw [(hc.front e he).2, hd0 p e.1 ((mem_twins features p e.1).mp (hc.front e he).1).symm]
      · exact hg.dist p e (hc.back e he).1
  · change e ∈ a.row p at he
    change q ∉ (a.row p).map Prod.fst at hq
    by_cases h : (twins features p).length ≤ 1
    · rw [(h2 p).1 h] at he hq
      exact hg.nearest p e he q hqp hq
    · have hc := (h2 p).2 (by omega)
      have hmp : p ∈ twins features p := (mem_twins features p p).mpr rfl
      have he' := he
      rw [← List.take_append_drop (min ((twins features p).length - 1) k) (a.row p), List.mem_append] at he'
      rcases he' with he' | he'
      · rw [(hc.front e he').2]
        exact hd p q
      · have hk : (twins features p).length ≤ k := by
          by_contra hlt
          rw [show min ((twins features p).length - 1) k = k by omega,
            List.drop_eq_nil_of_le (by rw [hc.length])] at he'
          simp at he'
        have hinc : min ((twins features p).length - 1) k = (twins features p).length - 1 := by omega
        have hback := hc.back
        rw [hinc] at he' hback
        have hall' := hc.all_listed hmp (by omega)
        have hqt : q ∉ twins features p := fun hqt => hq (List.mem_map_of_mem (hall' q hqt hqp))
        by_cases hqg : q ∈ (g p).map Prod.fst
        · -- some duplicate is missing in the old row, so its entries are all at distance 0
          have hmiss : ∃ t ∈ twins features p, t ≠ p ∧ t ∉ (g p).map Prod.fst := by
            by_contra hno
            push Not at hno
            have hbn : (((a.row p).drop ((twins features p).length - 1)).map Prod.fst).Nodup :=
              ((List.drop_sublist _ _).map Prod.fst).nodup hc.nodup
            have hn : ((twins features p).erase p ++
                q :: ((a.row p).drop ((twins features p).length - 1)).map Prod.fst).Nodup := by
              rw [List.nodup_append]
              refine ⟨(nodup_twins features p).erase p, ?_, ?_⟩
              · rw [List.nodup_cons]
                refine ⟨fun hx => hq ?_, hbn⟩
                exact ((List.drop_sublist _ _).map Prod.fst).subset hx
              · intro x hx y hy hxy
                subst hxy
                have hxt := List.mem_of_mem_erase hx
                rcases List.mem_cons.mp hy with rfl | hy
                · exact hqt hxt
                · obtain ⟨f, hf, rfl⟩ := List.mem_map.mp hy
                  exact (hback f hf).2 hxt
            have hsub : ((twins features p).erase p ++
                q :: ((a.row p).drop ((twins features p).length - 1)).map Prod.fst) ⊆ (g p).map Prod.fst := by
              intro x hx
              rcases List.mem_append.mp hx with hx | hx
              · exact hno x (List.mem_of_mem_erase hx) (fun hxp =>
                  ((nodup_twins features p).mem_erase_iff.mp hx).1 hxp)
              · rcases List.mem_cons.mp hx with rfl | hx
                · exact hqg
                · obtain ⟨f, hf, rfl⟩ := List.mem_map.mp hx
                  exact List.mem_map_of_mem (hback f hf).1
            have hle := (List.subperm_of_subset hn hsub).length_le
            rw [List.length_append, List.length_erase_of_mem hmp, List.length_cons, List.length_map, List.length_drop,
              hc.length, List.length_map, (hg.lists p).1] at hle
            omega
          obtain ⟨t, ht, htp, htg⟩ := hmiss
          have := hg.nearest p e (hback e he').1 t htp htg
          rw [hd0 p t ((mem_twins features p t).mp ht).symm] at this
          exact le_trans this (hd p q)
        · exact hg.nearest p e (hback e he').1 q hqp hqg

/-! ### The order of the entries -/

/-- A stable sort. -/
def Stable {α : Type} [LinearOrder α] (B : ArgSort α) : Prop :=
  ∀ {n : ℕ} (v : Fin n → α), (B.indices v).Pairwise (fun i j => v i = v j → i < j)

theorem sortOn_stable {α β : Type} [LinearOrder α] (B : ArgSort α) (hB : Stable B) (key : β → α) (R : β → β → Prop)
    (l : List β) (hl : l.Pairwise R) : (sortOn B key l).Pairwise (fun x y => key x = key y → R x y) := by
  unfold sortOn
  rw [List.pairwise_map]
  refine (hB (fun r => key (l.get r))).imp ?_
  intro i j hij hk
  exact List.pairwise_iff_get.mp hl i j (hij hk)

/-- The order of a row is kept by a stable sort. -/
theorem correctRow_sorted (S : ArgSort (Fin N)) (B : ArgSort Bool) (hB : Stable B) (k : ℕ) (dups : List (Fin N))
    (i : ℕ) (hi : i < dups.length) (row row' : List (Fin N × ℚ))
    (hrow : (row.map Prod.fst).Nodup) (hself : dups[i] ∉ row.map Prod.fst)
    (hs : row.Pairwise (fun x y => x.2 ≤ y.2)) (h0 : ∀ e ∈ row, 0 ≤ e.2)
    (h : correctRow S B k dups i row = .ok row') :
    row'.Pairwise (fun x y => x.2 ≤ y.2) ∧
      (dups.length ≤ k → ∀ x ∈ row, x.1 ∉ dups → x ∉ row' → ∀ y ∈ row', y.2 ≤ x.2) := by
  have hzero : ∀ l : List (Fin N), (l.map (fun j => ((j, 0) : Fin N × ℚ))).Pairwise (fun x y => x.2 ≤ y.2) := by
    intro l
    rw [List.pairwise_map]
    exact List.Pairwise.imp (fun _ => le_rfl) (List.pairwise_of_forall (R := fun _ _ => True) (fun _ _ => trivial))
  unfold correctRow at h
  dsimp only at h
  split_ifs at h with h1 h2 h3
  · obtain rfl := Except.ok.inj h
    exact ⟨hzero _, fun hk => by omega⟩
  · obtain rfl := Except.ok.inj h
    exact ⟨hzero _, fun hk => by omega⟩
  · have hinc : min (dups.length - 1) k = dups.length - 1 := by omega
    rw [hinc] at h
    obtain rfl := Except.ok.inj h
    have hst := sortOn_stable B hB (fun e : Fin N × ℚ => decide (e.1 ∈ dups)) (fun x y => x.2 ≤ y.2) row hs
    have hkey := sorted_bool_take B (fun e : Fin N × ℚ => decide (e.1 ∈ dups)) row (row.length - (dups.length - 1))
      (countP_notMem_ge dups dups[i] (List.getElem_mem hi) row hrow hself)
    have hmem : ∀ e ∈ (sortOn B (fun e : Fin N × ℚ => decide (e.1 ∈ dups)) row).take (row.length - (dups.length - 1)),
        e ∈ row := fun e he => (mem_sortOn _ _ _ _).mp (List.mem_of_mem_take he)
    constructor
    · rw [List.pairwise_append]
      refine ⟨hzero _, ?_, ?_⟩
      · have hst' := hst.sublist (List.take_sublist (row.length - (dups.length - 1)) _)
        refine hst'.imp_of_mem ?_
        intro x y hx hy hxy
        exact hxy ((hkey x hx).trans (hkey y hy).symm)
      · intro x hx y hy
        obtain ⟨j, _, rfl⟩ := List.mem_map.mp hx
        exact h0 y (hmem y hy)
    · intro _ x hx hxd hxn y hy
      rcases List.mem_append.mp hy with hy | hy
      · obtain ⟨j, _, rfl⟩ := List.mem_map.mp hy
        exact h0 x hx
      · have hx' : x ∈ (sortOn B (fun e : Fin N × ℚ => decide (e.1 ∈ dups)) row).drop (row.length - (dups.length - 1)) := by
          have := (mem_sortOn B (fun e : Fin N × ℚ => decide (e.1 ∈ dups)) row x).mpr hx
          rw [← List.take_append_drop (row.length - (dups.length - 1))
            (sortOn B (fun e : Fin N × ℚ => decide (e.1 ∈ dups)) row), List.mem_append] at this
          exact this.resolve_left (fun hx => hxn (List.mem_append_right _ hx))
        rw [← List.take_append_drop (row.length - (dups.length - 1))
          (sortOn B (fun e : Fin N × ℚ => decide (e.1 ∈ dups)) row), List.pairwise_append] at hst
        refine hst.2.2 y hy x hx' ?_
        rw [hkey y hy]
        simp [hxd]

/-- **C108** (partial: only if `np.argsort` on the mask is stable, which numpy promises for no row of more than 16 entries):
if the index lists neighbours by increasing distance, so does the corrected graph, and of the points that are no duplicates
it keeps the nearest ones, even for an index that missed duplicates. -/
theorem C108_order_partial {X : Type} [DecidableEq X] (S : ArgSort (Fin N)) (B : ArgSort Bool) (hB : Stable B)
    (features : Fin N → X) (values : List X) (hnd : values.Nodup) (hall : ∀ i, features i ∈ values) (k : ℕ) (g : Graph N)
    (hg : ListsOthers k g) (hN : 0 < N) (hs : ∀ p, (g p).Pairwise (fun x y => x.2 ≤ y.2)) (h0 : ∀ p, ∀ e ∈ g p, 0 ≤ e.2) :
    ∃ a, correctGraph S B features values (constructGraph k g) = .ok a ∧
      ∀ p : Fin N, (a.row p).Pairwise (fun x y => x.2 ≤ y.2) ∧
        ((twins features p).length ≤ k → ∀ x ∈ g p, features x.1 ≠ features p → x ∉ a.row p → ∀ y ∈ a.row p, y.2 ≤ x.2) := by
  obtain ⟨a, h1, _, h2⟩ := correctGraph_rows S B features values hnd hall k g hg hN
  refine ⟨a, h1, fun p => ?_⟩
  by_cases h : (twins features p).length ≤ 1
  · rw [(h2 p).2.1 h]
    exact ⟨hs p, fun _ x hx _ hxn => absurd hx hxn⟩
  · obtain ⟨i, hi, hpi, hr⟩ := (h2 p).2.2 (by omega)
    obtain ⟨h3, h4⟩ := correctRow_sorted S B hB k (twins features p) i hi (g p) _ (hg p).2.1
      (hpi ▸ (hg p).2.2) (hs p) (h0 p) hr
    exact ⟨h3, fun hk x hx hf => h4 hk x hx (fun hm => hf ((mem_twins features p x.1).mp hm))⟩

/-- A stable sort exists: insertion sort. -/
theorem stableSort_stable (α : Type) [LinearOrder α] : Stable (stableSort α) := by
  intro n v
  rw [stableSort_indices]
  rw [List.pairwise_iff_forall_sublist]
  intro a b hab hv
  have hnd : (stableOrder v).Nodup := (stableOrder_perm v).nodup_iff.mpr (List.nodup_finRange n)
  rcases lt_trichotomy a b with h | h | h
  · exact h
  · subst h
    have := hab.nodup hnd
    simp at this
  · exfalso
    have h1 : [b, a].Sublist (List.finRange n) := by
      have : [b, a].Pairwise (· < ·) := by simpa using h
      exact List.sublist_of_subperm_of_pairwise
        (List.subperm_of_subset (by simp [ne_of_lt h]) (fun x _ => List.mem_finRange x)) this
        (List.pairwise_lt_finRange n)
    have h2 : [b, a].Sublist (stableOrder v) := by
      unfold stableOrder
      exact List.sublist_insertionSort (by simp [hv.symm.le]) h1
    obtain ⟨l, hl⟩ : ∃ l, l = stableOrder v := ⟨_, rfl⟩
    rw [← hl] at hab h2 hnd
    clear hl h1
    induction l with
    | nil => simp at hab
    | cons c l ih =>
      rw [List.nodup_cons] at hnd
      rw [List.cons_sublist_cons'] at hab h2
      rcases hab with hab | ⟨rfl, hab⟩
      · rcases h2 with h2 | ⟨rfl, h2⟩
        · exact ih hnd.2 h2 hab
        · exact hnd.1 (hab.subset (by simp))
      · rcases h2 with h2 | ⟨h3, h2⟩
        · exact hnd.1 (h2.subset (by simp))
        · exact absurd h3 (ne_of_lt h)

/-! ### Number of neighbours and metric -/

/-- **C108**: the number of neighbours of the graph: the requested number if it is between 1 and `N - 1`, and the smaller of 10 and `N - 1` if none is requested;
an error if the number is `N` or more, or negative. -/
theorem C108_neighbours (N cols : ℕ) (metric : Option Metric) :
    (∀ k : ℤ, 1 ≤ k → k < N → featuresToKnn N cols (some k) metric = .ok (k.toNat, chooseMetric metric N cols)) ∧
      (∀ k : ℤ, (N : ℤ) ≤ k → featuresToKnn N cols (some k) metric = .error "ValueError") ∧
      (∀ k : ℤ, k < 0 → featuresToKnn N cols (some k) metric = .error "InvalidParameterError") ∧
      (2 ≤ N → featuresToKnn N cols none metric = .ok (min 10 (N - 1), chooseMetric metric N cols)) ∧
      (N ≤ 1 → featuresToKnn N cols none metric = .error "InvalidParameterError") := by
  unfold featuresToKnn configureNeighbors
  refine ⟨fun k h1 h2 => ?_, fun k h => ?_, fun k h => ?_, fun h => ?_, fun h => ?_⟩
  · simp only [Option.any_some]
    rw [if_neg (by simpa using h2), if_neg (by omega)]
    dsimp only [bind, Except.bind]
    rw [if_neg (by omega)]
  · simp only [Option.any_some]
    rw [if_pos (by simpa using h)]
    rfl
  · simp only [Option.any_some]
    rw [if_neg (by simp; omega), if_neg (by omega)]
    dsimp only [bind, Except.bind]
    rw [if_pos (by omega)]
  · simp only [Option.any_none, Bool.false_eq_true, if_false]
    dsimp only [bind, Except.bind]
    rw [if_neg (by omega)]
    congr 2
    omega
  · simp only [Option.any_none, Bool.false_eq_true, if_false]
    dsimp only [bind, Except.bind]
    rw [if_pos (by omega)]

/-- **C108** refuted: asking for no neighbours (`n_neighbors=0`) is neither honoured nor refused but taken as the default. -/
theorem C108_not_zero (N cols : ℕ) (metric : Option Metric) (hN : 2 ≤ N) :
    featuresToKnn N cols (some 0) metric = .ok (min 10 (N - 1), chooseMetric metric N cols) := by
  unfold featuresToKnn configureNeighbors
  simp only [Option.any_some]
  rw [if_neg (by simp; omega)]
  simp only [if_true]
  dsimp only [bind, Except.bind]
  rw [if_neg (by omega)]
  congr 2
  omega

example : featuresToKnn 5 2 (some 0) none = .ok (4, .scipyEuclidean) := by decide +kernel
example : featuresToKnn 5 2 (some 5) none = .error "ValueError" := by decide +kernel
example : featuresToKnn 500 7 none none = .ok (10, .cosine) := by decide +kernel

/-- **C108**: the metric: the user's if one is named; otherwise cosine for more than three columns, sklearn's Euclidean distance
for more than 100 rows and scipy's for the rest. -/
theorem C108_metric (rows cols : ℕ) :
    (∀ m, m ≠ Metric.other "" → chooseMetric (some m) rows cols = m) ∧
      (4 ≤ cols → chooseMetric none rows cols = .cosine) ∧
      (cols ≤ 3 → 101 ≤ rows → chooseMetric none rows cols = .euclidean) ∧
      (cols ≤ 3 → rows ≤ 100 → chooseMetric none rows cols = .scipyEuclidean) := by
  unfold chooseMetric decideMetric decideEuclidean
  refine ⟨fun m h => by simp only; rw [if_neg h], fun h => ?_, fun h h2 => ?_, fun h h2 => ?_⟩
  · simp only; rw [if_pos (by omega)]
  · simp only; rw [if_neg (by omega), if_pos (by omega)]
  · simp only; rw [if_neg (by omega), if_neg (by omega)]

/-- **C108**: the whole construction with an exact index for every metric: the graph has as many neighbours per point as
`featuresToKnn` says, and they are the nearest ones; an error of `featuresToKnn` is an error of the construction. -/
theorem C108_create {X : Type} [DecidableEq X] (S : ArgSort (Fin N)) (B : ArgSort Bool) (features : Fin N → X)
    (values : List X) (hnd : values.Nodup) (hall : ∀ i, features i ∈ values) (d : Metric → Fin N → Fin N → ℚ)
    (hd : ∀ m p q, 0 ≤ d m p q) (hd0 : ∀ m p q, features p = features q → d m p q = 0) (cols : ℕ)
    (query : ℕ → Metric → Graph N) (hq : ∀ k m, k < N → IsNearest (d m) k (query k m)) (k : Option ℤ)
    (metric : Option Metric) (correct : Bool) :
    match featuresToKnn N cols k metric with
    | .error e => createGraph S B features values cols query k metric correct = .error e
    | .ok (n, m) => ∃ a, createGraph S B features values cols query k metric correct = .ok a ∧
        IsNearest (d m) n (fun p => a.row p) := by
  cases hf : featuresToKnn N cols k metric with
  | error e =>
    unfold createGraph
    rw [hf]
    rfl
  | ok r =>
    obtain ⟨n, m⟩ := r
    have hn : n < N := by
      unfold featuresToKnn configureNeighbors at hf
      dsimp only [bind, Except.bind] at hf
      split at hf
      · exact absurd hf (by simp)
      · rename_i v hv
        split_ifs at hf with h1
        have h2 := Except.ok.inj hf
        have h3 : v.toNat = n := congrArg Prod.fst h2
        split_ifs at hv with h4
        have h5 := Except.ok.inj hv
        cases k with
        | none =>
          simp only at h5
          omega
        | some k =>
          simp only [Option.any_some, decide_eq_true_eq, not_le] at h4
          simp only at h5
          split_ifs at h5 <;> omega
    unfold createGraph
    rw [hf]
    dsimp only [bind, Except.bind, pure, Except.pure]
    cases correct with
    | false =>
      refine ⟨_, rfl, ?_⟩
      have : (fun p : Fin N => (constructGraph n (query n m)).row p) = query n m :=
        funext (C108_rows n (query n m) (fun p => ((hq n m hn).lists p).1))
      rw [this]
      exact hq n m hn
    | true =>
      rw [if_pos rfl]
      exact C108_exact S B features values hnd hall (d m) (hd m) (hd0 m) n (query n m) (hq n m hn) (by omega)

/-! ### Examples and counterexamples -/

/-- Points 0 and 1 coincide on a line, 2, 3 and 4 follow. -/
def linePoints : Fin 5 → ℕ := ![0, 0, 1, 2, 3]

/-- An approximate index that missed the duplicates: three neighbours per point. -/
def lineIndex : Graph 5 :=
  ![[(2, 1), (3, 2), (4, 3)], [(2, 1), (3, 2), (4, 3)], [(0, 1), (1, 1), (3, 1)], [(2, 1), (4, 1), (0, 2)],
    [(3, 1), (2, 2), (0, 3)]]

/-- Non-vacuity of `C108_duplicates` and `C108_order_partial`. -/
example : ((correctGraph (stableSort (Fin 5)) (stableSort Bool) linePoints [0, 1, 2, 3] (constructGraph 3 lineIndex)).map
    (fun a => (List.range 5).map a.row)).toOption =
    some [[(1, 0), (2, 1), (3, 2)], [(0, 0), (2, 1), (3, 2)], [(0, 1), (1, 1), (3, 1)], [(2, 1), (4, 1), (0, 2)],
      [(3, 1), (2, 2), (0, 3)]] := by decide +kernel

example : ListsOthers 3 lineIndex ∧ (∀ i, linePoints i ∈ [0, 1, 2, 3]) ∧
    ∀ p, (lineIndex p).Pairwise (fun x y => x.2 ≤ y.2) := by
  unfold ListsOthers
  decide +kernel

/-- Non-vacuity of `C108_exact`: the distances on the line and an index that prefers the other points among equals. -/
example : IsNearest (N := 4) (fun p q => |((![0, 0, 0, 1] : Fin 4 → ℤ) p - (![0, 0, 0, 1] : Fin 4 → ℤ) q : ℤ)|) 1
    ![[(2, 0)], [(0, 0)], [(0, 0)], [(1, 1)]] :=
  ⟨by unfold ListsOthers; decide +kernel, by decide +kernel, by decide +kernel⟩

/-- An admissible sort that reverses the order of equal values. -/
def reversingSort (α : Type) [LinearOrder α] : ArgSort α where
  perm v := ((stableSort α).perm (v ∘ Fin.rev)).trans Fin.revPerm
  sorted v := (stableSort α).sorted (v ∘ Fin.rev)

/-- The hypothesis of `C108_order_partial` is needed: with a sort that is not stable the farther points are kept, in decreasing
order of distance. -/
theorem C108_order_needs_stable :
    ((correctGraph (stableSort (Fin 5)) (reversingSort Bool) linePoints [0, 1, 2, 3] (constructGraph 3 lineIndex)).map
      (fun a => a.row 0)).toOption = some [(1, 0), (4, 3), (3, 2)] := by decide +kernel

/-- **C108** refuted for graphs with rows of different lengths, which `correct_knn_graph` regroups instead of refusing them:
points 0 and 1 coincide, row 0 lists points 1 and 2 and row 1 is empty. Afterwards row 0 lists point 0 itself and row 1 still does not list
its duplicate. -/
theorem C108_not_ragged :
    ((correctGraph (N := 3) (stableSort (Fin 3)) (stableSort Bool) ![5, 5, 7] [5, 7]
      { data := [1/100, 2, 2], indices := [1, 2, 0], indptr := [0, 2, 2, 3] }).map
      (fun a => (List.range 3).map a.row)).toOption = some [[(1, 0), (0, 0)], [], [(0, 2)]] := by decide +kernel

/-- **C108** refuted for the example in the docstring of `correct_knn_distances_and_indices`, which shows the last row as `[0]`:
the neighbour of a point without duplicates is not replaced. -/
theorem C108_not_docstring :
    (correctGraph (N := 3) (stableSort (Fin 3)) (stableSort Bool) ![(0, 0), (0, 0), (1, 1)] [((0 : ℕ), (0 : ℕ)), (1, 1)]
      (constructGraph 1 ![[(2, 1414/1000)], [(0, 1/10000000000000000)], [(1, 1414/1000)]])).toOption =
    some { data := [0, 0, 1414/1000], indices := [1, 0, 1], indptr := [0, 1, 2, 3] } := by decide +kernel

end Cleanlab.Props
