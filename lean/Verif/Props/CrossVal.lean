import Verif.Model.CrossVal
import Verif.Props.Token

/-!
# C17: cross-validated predictions are out of sample
-/

namespace Cleanlab.Props

open Cleanlab.CrossVal

variable {n K : ℕ}

/-- What `StratifiedKFold` guarantees: every example is held out in exactly one split, once, and the training part of a
split is everything else. -/
structure Folds (splits : List (Split n)) : Prop where
  cover : ∀ i, ∃ s ∈ splits, i ∈ s.holdout
  disjoint : splits.Pairwise (fun s t => ∀ i, i ∈ s.holdout → i ∉ t.holdout)
  nodup : ∀ s ∈ splits, s.holdout.Nodup
  train : ∀ s ∈ splits, ∀ i, i ∈ s.train ↔ i ∉ s.holdout

/-- The example `i` of the holdout part is the one copied into the training part: no training example has its label, and
it is the first held out example with that label. -/
def Duplicated (labels : Fin n → Fin K) (s : Split n) (i : Fin n) : Prop :=
  (∀ j ∈ s.train, labels j ≠ labels i) ∧ ∃ pre post, s.holdout = pre ++ i :: post ∧ ∀ j ∈ pre, labels j ≠ labels i

theorem dupPosition_ok {labels : Fin n → Fin K} {holdout : List (Fin n)} {c : Fin K} {p : Fin holdout.length}
    (h : dupPosition labels holdout c = .ok p) :
    labels (holdout.get p) = c ∧ ∀ q, q < p → labels (holdout.get q) ≠ c := by
  unfold dupPosition at h
  split at h
  · cases h
  · rename_i q rest hf
    have := Except.ok.inj h; subst this
    have hm : q ∈ (List.finRange holdout.length).filter (fun p => decide (labels (holdout.get p) = c)) := by
      rw [hf]; exact List.mem_cons_self
    refine ⟨by simpa using (List.mem_filter.mp hm).2, fun r hr hc => ?_⟩
    have hm2 : r ∈ (List.finRange holdout.length).filter (fun p => decide (labels (holdout.get p) = c)) :=
      List.mem_filter.mpr ⟨List.mem_finRange _, by simpa using hc⟩
    have hs : ((List.finRange holdout.length).filter (fun p => decide (labels (holdout.get p) = c))).Pairwise (· < ·) :=
      (List.pairwise_lt_finRange _).filter _
    rw [hf] at hm2 hs
    rcases List.mem_cons.mp hm2 with h1 | h1
    · subst h1; exact lt_irrefl _ hr
    · exact lt_asymm hr (List.rel_of_pairwise_cons hs h1)

theorem dupPosition_exists {labels : Fin n → Fin K} {holdout : List (Fin n)} {c : Fin K}
    (h : ∃ i ∈ holdout, labels i = c) : ∃ p, dupPosition labels holdout c = .ok p := by
  obtain ⟨i, hi, hc⟩ := h
  obtain ⟨p, hp⟩ := List.mem_iff_get.mp hi
  unfold dupPosition
  split
  · rename_i hf
    have : p ∈ (List.finRange holdout.length).filter (fun p => decide (labels (holdout.get p) = c)) :=
      List.mem_filter.mpr ⟨List.mem_finRange _, by simpa [← hp] using hc⟩
    rw [hf] at this; cases this
  · exact ⟨_, rfl⟩

/-- Updating at positions of an injective list of keys. -/
theorem foldl_update_get {ι β γ : Type} [DecidableEq ι] (key : γ → ι) (val : γ → β) :
    ∀ (l : List γ) (f : ι → β), (l.map key).Nodup →
      (∀ d ∈ l, (l.foldl (fun g d => Function.update g (key d) (val d)) f) (key d) = val d) ∧
      ∀ i, i ∉ l.map key → (l.foldl (fun g d => Function.update g (key d) (val d)) f) i = f i := by
  intro l
  induction l with
  | nil => intro f _; exact ⟨by simp, by simp⟩
  | cons a l ih =>
    intro f hnd
    rw [List.map_cons, List.nodup_cons] at hnd
    obtain ⟨h1, h2⟩ := ih (Function.update f (key a) (val a)) hnd.2
    refine ⟨fun d hd => ?_, fun i hi => ?_⟩
    · rw [List.foldl_cons]
      rcases List.mem_cons.mp hd with h | h
      · subst h; rw [h2 _ hnd.1, Function.update_self]
      · exact h1 d h
    · rw [List.foldl_cons]
      rw [List.map_cons, List.mem_cons, not_or] at hi
      rw [h2 _ hi.2, Function.update_of_ne hi.1]

theorem assignRows_get (P : Fin n → Fin K → ℚ) (holdout : List (Fin n)) (preds : Fin holdout.length → Fin K → ℚ)
    (hnd : holdout.Nodup) :
    (∀ p, assignRows P holdout preds (holdout.get p) = preds p) ∧ ∀ i, i ∉ holdout → assignRows P holdout preds i = P i := by
  have hm : (List.finRange holdout.length).map holdout.get = holdout := List.map_get_finRange _
  obtain ⟨h1, h2⟩ := foldl_update_get holdout.get preds (List.finRange holdout.length) P (by rw [hm]; exact hnd)
  exact ⟨fun p => h1 p (List.mem_finRange _), fun i hi => h2 i (by rw [hm]; exact hi)⟩

theorem dups_exist (labels : Fin n → Fin K) (holdout : List (Fin n)) :
    ∀ cs : List (Fin K), (∀ c ∈ cs, ∃ i ∈ holdout, labels i = c) →
      ∃ dups : List (Fin K × Fin holdout.length), cs.mapM (fun c => do
          let p ← dupPosition labels holdout c
          return (c, p)) = Except.ok dups ∧ dups.map Prod.fst = cs ∧
        ∀ d ∈ dups, dupPosition labels holdout d.1 = .ok d.2 := by
  intro cs
  induction cs with
  | nil => intro _; exact ⟨[], rfl, rfl, by simp⟩
  | cons c cs ih =>
    intro h
    obtain ⟨dups, h1, h2, h3⟩ := ih (fun c hc => h c (List.mem_cons_of_mem _ hc))
    obtain ⟨p, hp⟩ := dupPosition_exists (h c List.mem_cons_self)
    refine ⟨(c, p) :: dups, ?_, by rw [List.map_cons, h2], ?_⟩
    · rw [List.mapM_cons, hp, h1]; rfl
    · intro d hd
      rcases List.mem_cons.mp hd with h | h
      · subst h; exact hp
      · exact h3 d h

/-- What one fold does. -/
theorem foldStep_spec {order : List (Fin K) → List (Fin K)} (horder : ∀ l, (order l).Perm l) (learn : Learner n K)
    (validation : Bool) (labels : Fin n → Fin K) (hall : ∀ c, ∃ i, labels i = c) (P : Fin n → Fin K → ℚ) (s : Split n)
    (hnd : s.holdout.Nodup) (htrain : ∀ i, i ∈ s.train ↔ i ∉ s.holdout) :
    ∃ (extra : List (Fin n)) (P' : Fin n → Fin K → ℚ), foldStep order learn validation labels P s = .ok P' ∧
      (∀ i, i ∈ extra ↔ i ∈ s.holdout ∧ Duplicated labels s i) ∧ extra.Nodup ∧
      (∀ c, ∃ i ∈ s.train ++ extra, labels i = c) ∧
      (∀ i ∈ s.holdout, P' i = if i ∈ extra then dummyPred (labels i)
        else learn ((s.train ++ extra).map (fun j => (j, labels j)))
          (if validation then s.holdout.map (fun j => (j, labels j)) else []) i) ∧
      ∀ i, i ∉ s.holdout → P' i = P i := by
  have hmem : ∀ c, c ∈ missingClasses order labels s.train ↔ ∀ j ∈ s.train, labels j ≠ c := by
    intro c
    unfold missingClasses
    rw [(horder _).mem_iff, List.mem_filter]
    simp
  have hndc : (missingClasses order labels s.train).Nodup :=
    (horder _).nodup_iff.mpr ((List.nodup_finRange K).filter _)
  obtain ⟨dups, h1, h2, h3⟩ := dups_exist labels s.holdout (missingClasses order labels s.train) (by
    intro c hc
    obtain ⟨i, hi⟩ := hall c
    refine ⟨i, ?_, hi⟩
    by_contra hn
    exact (hmem c).mp hc i ((htrain i).mpr hn) hi)
  have hlab : ∀ d ∈ dups, labels (s.holdout.get d.2) = d.1 := fun d hd => (dupPosition_ok (h3 d hd)).1
  have hfst : (dups.map Prod.fst).Nodup := by rw [h2]; exact hndc
  have hinj : ∀ d ∈ dups, ∀ e ∈ dups, d.2 = e.2 → d = e := by
    intro d hd e he h
    have : d.1 = e.1 := by rw [← hlab d hd, ← hlab e he, h]
    exact Prod.ext this h
  have hdn : dups.Nodup := List.Nodup.of_map _ hfst
  have hsnd : (dups.map Prod.snd).Nodup := (List.nodup_map_iff_inj_on hdn).mpr (fun d hd e he h => hinj d hd e he h)
  obtain ⟨hu1, hu2⟩ := foldl_update_get (fun d : Fin K × Fin s.holdout.length => d.2) (fun d => dummyPred d.1) dups
    (fun p => learn (trainingData labels s dups) (if validation then s.holdout.map (fun i => (i, labels i)) else [])
      (s.holdout.get p)) hsnd
  obtain ⟨ha1, ha2⟩ := assignRows_get P s.holdout (foldPreds learn validation labels s dups) hnd
  have hget : Function.Injective s.holdout.get := List.nodup_iff_injective_get.mp hnd
  have hext : ∀ i, i ∈ dups.map (fun d => s.holdout.get d.2) ↔ i ∈ s.holdout ∧ Duplicated labels s i := by
    intro i
    constructor
    · intro hi
      obtain ⟨d, hd, rfl⟩ := List.mem_map.mp hi
      have hmis : d.1 ∈ missingClasses order labels s.train := by rw [← h2]; exact List.mem_map_of_mem hd
      obtain ⟨g1, g2⟩ := dupPosition_ok (h3 d hd)
      refine ⟨List.get_mem _ _, fun j hj => ?_, s.holdout.take d.2, s.holdout.drop (d.2 + 1), ?_, ?_⟩
      · rw [g1]; exact (hmem _).mp hmis j hj
      · show s.holdout = _ ++ s.holdout[d.2.val] :: _
        rw [List.getElem_cons_drop, List.take_append_drop]
      · intro j hj
        obtain ⟨q, hq, rfl⟩ := List.mem_iff_getElem.mp hj
        rw [List.length_take] at hq
        rw [List.getElem_take, g1]
        exact g2 ⟨q, by omega⟩ (by show q < d.2.val; omega)
    · rintro ⟨hi, hd1, pre, post, hsplit, hpre⟩
      have hc : labels i ∈ dups.map Prod.fst := by rw [h2]; exact (hmem _).mpr hd1
      obtain ⟨d, hd, hdc⟩ := List.mem_map.mp hc
      obtain ⟨g1, g2⟩ := dupPosition_ok (h3 d hd)
      refine List.mem_map.mpr ⟨d, hd, ?_⟩
      have hlen : pre.length < s.holdout.length := by rw [hsplit]; simp
      have hat : s.holdout.get ⟨pre.length, hlen⟩ = i := by
        show s.holdout[pre.length] = i
        simp only [hsplit]
        simp
      rcases lt_trichotomy d.2 ⟨pre.length, hlen⟩ with h | h | h
      · exfalso
        have hlt : d.2.val < pre.length := h
        apply hpre (s.holdout.get d.2)
        · have : s.holdout.get d.2 = pre[d.2.val] := by
            show s.holdout[d.2.val] = _
            have e : s.holdout[d.2.val] = (pre ++ i :: post)[d.2.val]'(by rw [← hsplit]; exact d.2.isLt) := by
              congr 1
            rw [e, List.getElem_append_left hlt]
          rw [this]; exact List.getElem_mem _
        · rw [g1, hdc]
      · rw [h]; exact hat
      · exact absurd (by rw [hat, hdc]) (g2 _ h)
  refine ⟨dups.map (fun d => s.holdout.get d.2), assignRows P s.holdout (foldPreds learn validation labels s dups), ?_,
    hext, ?_, ?_, ?_, ha2⟩
  · unfold foldStep missingClassInds
    rw [h1]; rfl
  · exact (List.nodup_map_iff_inj_on hdn).mpr (fun d hd e he h => hinj d hd e he (hget h))
  · intro c
    by_cases hc : ∃ j ∈ s.train, labels j = c
    · obtain ⟨j, hj, hjc⟩ := hc
      exact ⟨j, List.mem_append_left _ hj, hjc⟩
    · have : c ∈ dups.map Prod.fst := by
        rw [h2, hmem]
        intro j hj hjc
        exact hc ⟨j, hj, hjc⟩
      obtain ⟨d, hd, rfl⟩ := List.mem_map.mp this
      exact ⟨s.holdout.get d.2, List.mem_append_right _ (List.mem_map_of_mem (f := fun d => s.holdout.get d.2) hd), hlab d hd⟩
  · intro i hi
    obtain ⟨p, rfl⟩ := List.mem_iff_get.mp hi
    rw [ha1 p]
    by_cases hx : s.holdout.get p ∈ dups.map (fun d => s.holdout.get d.2)
    · rw [if_pos hx]
      obtain ⟨d, hd, hdp⟩ := List.mem_map.mp hx
      have : d.2 = p := hget hdp
      subst this
      rw [hlab d hd]
      exact hu1 d hd
    · rw [if_neg hx]
      have := hu2 p (by
        intro hp
        obtain ⟨d, hd, hdp⟩ := List.mem_map.mp hp
        exact hx (List.mem_map.mpr ⟨d, hd, by rw [hdp]⟩))
      unfold foldPreds
      rw [this]
      congr 1
      unfold trainingData
      rw [List.map_append, List.map_map]
      rfl

theorem two_labels (hK : 2 ≤ K) {labels : Fin n → Fin K} (hall : ∀ c, ∃ i, labels i = c) :
    ∃ i j, labels i ≠ labels j := by
  obtain ⟨i, hi⟩ := hall ⟨0, by omega⟩
  obtain ⟨j, hj⟩ := hall ⟨1, by omega⟩
  exact ⟨i, j, by rw [hi, hj]; simp⟩

/-- **C17.** For every way of splitting, every classifier and every labelling in which all of at least two classes occur, the
cross-validation ends with a matrix in which the row of each held out example is what the model trained in that split
predicts for it; the model was trained on the training part and the duplicated examples only, which do not include the
example. For a duplicated example the row is the one-hot row of its label. With the duplicates every class occurs in the
training data, and an example is duplicated only if no training example has its label and it is the first such example
held out. -/
theorem C17_out_of_sample (order : List (Fin K) → List (Fin K)) (horder : ∀ l, (order l).Perm l) (learn : Learner n K)
    (validation : Bool) (hK : 2 ≤ K) (labels : Fin n → Fin K) (hall : ∀ c, ∃ i, labels i = c) (splits : List (Split n))
    (hf : Folds splits) :
    ∃ P, cvPredProbs order learn validation labels splits = .ok P ∧ ∀ s ∈ splits, ∃ extra : List (Fin n),
      (∀ i, i ∈ extra ↔ i ∈ s.holdout ∧ Duplicated labels s i) ∧ extra.Nodup ∧
      (∀ c, ∃ i ∈ s.train ++ extra, labels i = c) ∧
      ∀ i ∈ s.holdout, (i ∈ extra ∧ ∀ k, P i k = if k = labels i then 1 else 0) ∨
        (i ∉ s.train ++ extra ∧ P i = learn ((s.train ++ extra).map (fun j => (j, labels j)))
          (if validation then s.holdout.map (fun j => (j, labels j)) else []) i) := by
  have key : ∀ (l : List (Split n)) (P0 : Fin n → Fin K → ℚ),
      l.Pairwise (fun s t => ∀ i, i ∈ s.holdout → i ∉ t.holdout) → (∀ s ∈ l, s.holdout.Nodup) →
      (∀ s ∈ l, ∀ i, i ∈ s.train ↔ i ∉ s.holdout) →
      ∃ P, l.foldlM (foldStep order learn validation labels) P0 = Except.ok P ∧
        (∀ i, (∀ s ∈ l, i ∉ s.holdout) → P i = P0 i) ∧ ∀ s ∈ l, ∃ extra : List (Fin n),
        (∀ i, i ∈ extra ↔ i ∈ s.holdout ∧ Duplicated labels s i) ∧ extra.Nodup ∧
        (∀ c, ∃ i ∈ s.train ++ extra, labels i = c) ∧
        ∀ i ∈ s.holdout, P i = if i ∈ extra then dummyPred (labels i)
          else learn ((s.train ++ extra).map (fun j => (j, labels j)))
            (if validation then s.holdout.map (fun j => (j, labels j)) else []) i := by
    intro l
    induction l with
    | nil => intro P0 _ _ _; exact ⟨P0, rfl, fun _ _ => rfl, by simp⟩
    | cons s l ih =>
      intro P0 hd hn ht
      rw [List.pairwise_cons] at hd
      obtain ⟨extra, P1, e0, e1, e2, e3, e4, e5⟩ := foldStep_spec horder learn validation labels hall P0 s
        (hn s List.mem_cons_self) (ht s List.mem_cons_self)
      obtain ⟨P, p1, p2, p3⟩ := ih P1 hd.2 (fun t h => hn t (List.mem_cons_of_mem _ h))
        (fun t h => ht t (List.mem_cons_of_mem _ h))
      refine ⟨P, by rw [List.foldlM_cons, e0]; exact p1, ?_, ?_⟩
      · intro i hi
        rw [p2 i (fun t h => hi t (List.mem_cons_of_mem _ h)), e5 i (hi s List.mem_cons_self)]
      · intro t h
        rcases List.mem_cons.mp h with h | h
        · subst h
          refine ⟨extra, e1, e2, e3, fun i hi => ?_⟩
          rw [p2 i (fun u hu => hd.1 u hu i hi)]
          exact e4 i hi
        · exact p3 t h
  obtain ⟨P, h1, -, h3⟩ := key splits (fun _ _ => 0) hf.disjoint hf.nodup hf.train
  refine ⟨P, (if_pos (two_labels hK hall)).trans h1, fun s hs => ?_⟩
  obtain ⟨extra, x1, x2, x3, x4⟩ := h3 s hs
  refine ⟨extra, x1, x2, x3, fun i hi => ?_⟩
  by_cases hx : i ∈ extra
  · left
    refine ⟨hx, fun k => ?_⟩
    rw [x4 i hi, if_pos hx]; rfl
  · right
    refine ⟨?_, by rw [x4 i hi, if_neg hx]⟩
    rw [List.mem_append, not_or]
    exact ⟨fun h => ((hf.train s hs i).mp h) hi, hx⟩

/-- **C17.** Labels that are all equal are refused, whatever the classifier. -/
theorem C17_one_class (order : List (Fin K) → List (Fin K)) (learn : Learner n K) (validation : Bool) (c : Fin K)
    (splits : List (Split n)) :
    cvPredProbs order learn validation (fun _ => c) splits = .error "Labels must contain at least 2 classes." :=
  if_neg (by rintro ⟨i, j, h⟩; exact h rfl)

/-- **C17.** Every row is filled by exactly one split. -/
theorem C17_one_split (splits : List (Split n)) (hf : Folds splits) (i : Fin n) :
    ∃ s ∈ splits, i ∈ s.holdout ∧ i ∉ s.train ∧ ∀ t ∈ splits, i ∈ t.holdout → t = s := by
  obtain ⟨s, hs, hi⟩ := hf.cover i
  refine ⟨s, hs, hi, fun h => (hf.train s hs i).mp h hi, fun t ht hit => ?_⟩
  by_contra hne
  have hsymm : Std.Symm (fun s t : Split n => ∀ i, i ∈ s.holdout → i ∉ t.holdout) := ⟨fun a b h i hb ha => h i ha hb⟩
  exact (hf.disjoint.forall hs ht (fun h => hne h.symm)) i hi hit

/-- Three examples in two classes, two splits; class 1 has one example, which is duplicated when held out. The learner
predicts the share of each label in its training data. -/
example : (cvPredProbs (n := 3) (K := 2) id (fun t _ _ k => (t.countP (fun e => e.2 = k) : ℚ) / t.length) false ![0, 0, 1]
      [⟨[1], [0, 2]⟩, ⟨[0, 2], [1]⟩]).toOption.map (fun P => (P 0 0, P 1 1, P 2 0, P 2 1)) =
    some (1 / 2, 1 / 2, 0, 1) := by
  decide +kernel

example : Folds (n := 3) [⟨[1], [0, 2]⟩, ⟨[0, 2], [1]⟩] :=
  ⟨by decide, by decide, by decide, by decide⟩

end Cleanlab.Props
