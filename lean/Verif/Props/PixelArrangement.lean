import Verif.Props.Segmentation
import Verif.Props.ClassNumbering
import Verif.Props.DetectionBoxes

/-!
# C165 and C166: the arrangement of the pixels and the numbering of the classes in semantic segmentation

The second stack may have another number of images and other sides, as long as its pixels are those of the first in some
order: images in another order, mirrored, turned or cut differently.
-/

namespace Cleanlab.Props

open Np Cleanlab.Util Cleanlab.Count Cleanlab.Rank Cleanlab.Batched Cleanlab.Segmentation Cleanlab.Spec

variable {N N' K h h' w w' d : ℕ}

/-- A pixel: image, row and column. -/
abbrev Pixel (N h w : ℕ) : Type := Fin N × Fin h × Fin w

/-- Pixel `e p` of the first stack is pixel `p` of the second, and class `k` is now called `τ k`. -/
structure SamePixels (e : Pixel N' h' w' ≃ Pixel N h w) (τ : Equiv.Perm (Fin K)) (labels : Stack N h w (Fin K))
    (P : Stack N h w (Fin K → ℚ)) (labels' : Stack N' h' w' (Fin K)) (P' : Stack N' h' w' (Fin K → ℚ)) : Prop where
  labels : ∀ p : Pixel N' h' w', labels' p.1 p.2.1 p.2.2 = τ (labels (e p).1 (e p).2.1 (e p).2.2)
  probs : ∀ (p : Pixel N' h' w') (k : Fin K), P' p.1 p.2.1 p.2.2 (τ k) = P (e p).1 (e p).2.1 (e p).2.2 k

/-- The probability of the given label. -/
def labelProb (labels : Stack N h w (Fin K)) (P : Stack N h w (Fin K → ℚ)) (p : Pixel N h w) : ℚ :=
  P p.1 p.2.1 p.2.2 (labels p.1 p.2.1 p.2.2)

/-- An example in the new numbering. -/
def renumberEx (τ : Equiv.Perm (Fin K)) (x : Ex K) : Ex K := (τ x.1, renumberV τ x.2)

/-- The pixels in the order of the code. -/
def pixelList (N h w : ℕ) : List (Pixel N h w) :=
  (List.finRange (N * (h * w))).map (fun r => (r.divNat, r.modNat.divNat, r.modNat.modNat))

theorem nodup_pixelList : (pixelList N h w).Nodup := by
  unfold pixelList
  refine (List.nodup_finRange _).map ?_
  intro r s hrs
  have h1 : r.divNat = s.divNat := congrArg Prod.fst hrs
  have h2 : r.modNat.divNat = s.modNat.divNat := congrArg (fun x => x.2.1) hrs
  have h3 : r.modNat.modNat = s.modNat.modNat := congrArg (fun x => x.2.2) hrs
  have e2 : finProdFinEquiv.symm r.modNat = finProdFinEquiv.symm s.modNat := Prod.ext h2 h3
  have e1 : finProdFinEquiv.symm r = finProdFinEquiv.symm s := Prod.ext h1 (finProdFinEquiv.symm.injective e2)
  exact finProdFinEquiv.symm.injective e1

theorem mem_pixelList (p : Pixel N h w) : p ∈ pixelList N h w := by
  unfold pixelList
  rw [List.mem_map]
  refine ⟨finProdFinEquiv (p.1, finProdFinEquiv p.2), List.mem_finRange _, ?_⟩
  have e1 := finProdFinEquiv.symm_apply_apply (p.1, finProdFinEquiv p.2)
  have h1 : (finProdFinEquiv (p.1, finProdFinEquiv p.2)).divNat = p.1 := congrArg Prod.fst e1
  have h2 : (finProdFinEquiv (p.1, finProdFinEquiv p.2)).modNat = finProdFinEquiv p.2 := congrArg Prod.snd e1
  have e2 := finProdFinEquiv.symm_apply_apply p.2
  have h3 : (finProdFinEquiv p.2).divNat = p.2.1 := congrArg Prod.fst e2
  have h4 : (finProdFinEquiv p.2).modNat = p.2.2 := congrArg Prod.snd e2
  rw [h1, h2, h3, h4]

theorem allPixels_eq_map (labels : Stack N h w (Fin K)) (P : Stack N h w (Fin K → ℚ)) :
    allPixels labels P = (pixelList N h w).map (fun p => (labels p.1 p.2.1 p.2.2, P p.1 p.2.1 p.2.2)) := by
  rw [allPixels_eq, pixelList, List.map_map, List.ofFn_eq_map]
  rfl

theorem allPixels_perm {e : Pixel N' h' w' ≃ Pixel N h w} {τ : Equiv.Perm (Fin K)} {labels : Stack N h w (Fin K)}
    {P : Stack N h w (Fin K → ℚ)} {labels' : Stack N' h' w' (Fin K)} {P' : Stack N' h' w' (Fin K → ℚ)}
    (hs : SamePixels e τ labels P labels' P') :
    (allPixels labels' P').Perm ((allPixels labels P).map (renumberEx τ)) := by
  have h1 : ((pixelList N' h' w').map e).Perm (pixelList N h w) := by
    refine (List.perm_ext_iff_of_nodup (nodup_pixelList.map e.injective) nodup_pixelList).mpr (fun p => ?_)
    exact ⟨fun _ => mem_pixelList p, fun _ => List.mem_map.mpr ⟨e.symm p, mem_pixelList _, e.apply_symm_apply p⟩⟩
  have h2 : allPixels labels' P' = ((pixelList N' h' w').map e).map
      (fun p => renumberEx τ (labels p.1 p.2.1 p.2.2, P p.1 p.2.1 p.2.2)) := by
    rw [allPixels_eq_map, List.map_map]
    refine List.map_congr_left (fun p _ => ?_)
    show _ = (_, _)
    rw [hs.labels p]
    congr 1
    funext k
    have := hs.probs p (τ.symm k)
    rw [Equiv.apply_symm_apply] at this
    rw [this]
    rfl
  have h3 : (allPixels labels P).map (renumberEx τ) = (pixelList N h w).map
      (fun p => renumberEx τ (labels p.1 p.2.1 p.2.2, P p.1 p.2.1 p.2.2)) := by
    rw [allPixels_eq_map, List.map_map]
    rfl
  rw [h2, h3]
  exact h1.map _

theorem given_renumberEx (τ : Equiv.Perm (Fin K)) (data : List (Ex K)) (k : Fin K) :
    given (data.map (renumberEx τ)) (τ k) = given data k := by
  unfold given
  rw [List.countP_map]
  refine List.countP_congr (fun x _ => ?_)
  simp [renumberEx]

theorem mass_renumberEx (τ : Equiv.Perm (Fin K)) (data : List (Ex K)) (k : Fin K) :
    mass (data.map (renumberEx τ)) (τ k) = mass data k := by
  unfold mass
  rw [List.filter_map, List.map_map]
  have h1 : (fun x : Ex K => decide (x.1 = τ k)) ∘ renumberEx τ = fun x => decide (x.1 = k) := by
    funext x; simp [renumberEx]
  have h2 : (fun x : Ex K => x.2 (τ k)) ∘ renumberEx τ = fun x => x.2 k := by
    funext x; simp [renumberEx, renumberV]
  rw [h1, h2]

theorem given_perm {a b : List (Ex K)} (hp : a.Perm b) (k : Fin K) : given a k = given b k := hp.countP_eq _

theorem mass_perm {a b : List (Ex K)} (hp : a.Perm b) (k : Fin K) : mass a k = mass b k :=
  ((hp.filter _).map _).sum_eq

/-- The thresholds that the batches end up with. -/
def streamThr (data : List (Ex K)) (k : Fin K) : ℚ :=
  if given data k = 0 then 2 / 1000000 else max (mass data k / given data k) thresholdsLowerBound

theorem streamThr_move {a b : List (Ex K)} {τ : Equiv.Perm (Fin K)} (hp : a.Perm (b.map (renumberEx τ))) :
    streamThr a = renumberV τ (streamThr b) := by
  funext k
  unfold renumberV streamThr
  have h1 := given_renumberEx τ b (τ.symm k)
  have h2 := mass_renumberEx τ b (τ.symm k)
  rw [Equiv.apply_symm_apply] at h1 h2
  rw [given_perm hp, mass_perm hp, h1, h2]

theorem offDiagonal_iff [NeZero K] (thr : Fin K → ℚ) (x : Ex K) :
    IsOffDiagonal thr x ↔ argmax x.2 ≠ x.1 ∧ thr (argmax x.2) ≤ x.2 (argmax x.2) + 1 / 1000000 := by
  unfold IsOffDiagonal
  constructor
  · rintro ⟨k, hk, h2, h3⟩
    rw [(argmax_eq_iff_isPrediction x.2 k).mpr hk]
    exact ⟨h2, h3⟩
  · rintro ⟨h2, h3⟩
    exact ⟨_, (argmax_eq_iff_isPrediction x.2 _).mp rfl, h2, h3⟩

theorem offDiagonal_move [NeZero K] (τ : Equiv.Perm (Fin K)) (thr : Fin K → ℚ) (x : Ex K)
    (hx : ∃ k, ∀ j, j ≠ k → x.2 j < x.2 k) :
    IsOffDiagonal (renumberV τ thr) (renumberEx τ x) ↔ IsOffDiagonal thr x := by
  rw [offDiagonal_iff, offDiagonal_iff]
  have ha : argmax (renumberEx τ x).2 = τ (argmax x.2) := argmax_renumber τ x.2 hx
  rw [ha]
  simp [renumberEx, renumberV]

/-- The number of pixels that the code takes for errors. -/
def suspects (data : List (Ex K)) : ℕ := data.countP (fun x => decide (IsOffDiagonal (streamThr data) x))

/-- The pixels with a lower probability of their label. -/
def lowerThan (data : List (Ex K)) (c : ℚ) : ℕ := data.countP (fun x => decide (x.2 x.1 < c))

theorem card_get_lt (l : List ℚ) (c : ℚ) :
    (Finset.univ.filter (fun s : Fin l.length => l.get s < c)).card = l.countP (fun x => decide (x < c)) := by
  have h1 : l.countP (fun x => decide (x < c)) = (List.finRange l.length).countP (fun s => decide (l.get s < c)) := by
    conv_lhs => rw [← List.map_get_finRange l]
    rw [List.countP_map]
    rfl
  rw [h1, List.countP_eq_length_filter, Finset.card_def]
  rfl

/-- The pixel is taken if fewer pixels have a lower probability than there are suspects. -/
theorem ranked_mem (A : ArgSort ℚ) [NeZero K] (jobs : ℕ → Jobs) (batchSize : ℕ) (labels : Stack N h w (Fin K))
    (P : Stack N h w (Fin K → ℚ)) (hne : 0 < N * (h * w)) (hp : ∀ p, 2 / 1000000 ≤ labelProb labels P p) :
    ∃ idx, rankedIssues A jobs batchSize labels P = .ok idx ∧ ∀ p : Pixel N h w,
      (∀ q, q ≠ p → labelProb labels P q ≠ labelProb labels P p) →
      (flatIdx p.1 p.2.1 p.2.2 ∈ idx ↔
        lowerThan (allPixels labels P) (labelProb labels P p) < suspects (allPixels labels P)) := by
  obtain ⟨bs, hf, hr⟩ := ranked_eq A jobs batchSize labels P hne
  have hd : allPixels labels P ≠ [] := by
    rw [← List.length_pos_iff_ne_nil, length_allPixels]; exact hne
  have hp' : ∀ x ∈ allPixels labels P, 2 / 1000000 ≤ x.2 x.1 := by
    intro x hx
    obtain ⟨n, i, j, rfl⟩ := (mem_allPixels labels P x).mp hx
    exact hp (n, i, j)
  have hthr : (bs.foldl updateThresholds {}).thr = streamThr (allPixels labels P) := by
    funext k
    rw [streaming_thresholds _ hd hp' bs hf k]
    unfold streamThr
    split_ifs with hk
    · rfl
    · exact thresholds_of_pos _ _ (Nat.pos_of_ne_zero hk)
  rw [hthr] at hr
  refine ⟨_, hr, fun p hu => ?_⟩
  set L := (allPixels labels P).map (selfConfidenceScore (streamThr (allPixels labels P))) with hL
  have hlen : L.length = N * (h * w) := by rw [hL, List.length_map, length_allPixels]
  have hget : ∀ n i j, ∀ q : flatIdx n i j < L.length, L.get ⟨flatIdx n i j, q⟩ = P n i j (labels n i j) := by
    intro n i j q
    simp only [hL, List.get_eq_getElem, List.getElem_map, allPixels_get]
    rfl
  have hlt : flatIdx p.1 p.2.1 p.2.2 < L.length := by rw [hlen]; exact flatIdx_lt _ _ _
  have hall : ∀ s : Fin L.length, ∃ q : Pixel N h w, s.val = flatIdx q.1 q.2.1 q.2.2 := by
    intro s
    have hs : s.val < N * (h * w) := by rw [← hlen]; exact s.isLt
    obtain ⟨q, hq⟩ : ∃ q : Pixel N h w, finProdFinEquiv (q.1, finProdFinEquiv q.2) = ⟨s.val, hs⟩ :=
      ⟨((⟨s.val, hs⟩ : Fin _).divNat, (finProdFinEquiv.symm (⟨s.val, hs⟩ : Fin _).modNat)), by
        rw [Equiv.apply_symm_apply]
        exact finProdFinEquiv.apply_symm_apply _⟩
    refine ⟨q, ?_⟩
    have := congrArg Fin.val hq
    simp only [finProdFinEquiv_apply_val] at this
    rw [← this]
    unfold flatIdx
    ring
  have htop : findTopIssues A L.get (some (suspects (allPixels labels P))) =
      (A.indices L.get).take (suspects (allPixels labels P)) := by
    unfold findTopIssues
    dsimp only
    split_ifs with hgt
    · rw [List.take_of_length_le (by rw [A.length_indices]), List.take_of_length_le (by rw [A.length_indices]; omega)]
    · rfl
  have hmem : flatIdx p.1 p.2.1 p.2.2 ∈ (findTopIssues A L.get (some (suspects (allPixels labels P)))).map Fin.val ↔
      (⟨_, hlt⟩ : Fin L.length) ∈ (A.indices L.get).take (suspects (allPixels labels P)) := by
    rw [htop, List.mem_map]
    constructor
    · rintro ⟨s, hs, he⟩
      have : s = ⟨_, hlt⟩ := Fin.ext he
      rwa [← this]
    · intro hm
      exact ⟨_, hm, rfl⟩
  have hrank := mem_take_indices_iff A L.get (suspects (allPixels labels P)) ⟨_, hlt⟩ (by
    intro s hs
    obtain ⟨q, hq⟩ := hall s
    have hs' : s = ⟨flatIdx q.1 q.2.1 q.2.2, hq ▸ s.isLt⟩ := Fin.ext hq
    rw [hs', hget, hget]
    refine hu q ?_
    rintro rfl
    exact hs hs')
  have hcount : (Finset.univ.filter (fun s : Fin L.length => L.get s < L.get ⟨_, hlt⟩)).card =
      lowerThan (allPixels labels P) (labelProb labels P p) := by
    rw [card_get_lt, hget, hL, List.countP_map]
    rfl
  rw [hcount] at hrank
  exact hmem.trans hrank

theorem lowerThan_move {a b : List (Ex K)} {τ : Equiv.Perm (Fin K)} (hp : a.Perm (b.map (renumberEx τ))) (c : ℚ) :
    lowerThan a c = lowerThan b c := by
  unfold lowerThan
  rw [hp.countP_eq, List.countP_map]
  congr 1
  funext x
  simp [renumberEx, renumberV]

theorem suspects_move [NeZero K] {a b : List (Ex K)} {τ : Equiv.Perm (Fin K)} (hp : a.Perm (b.map (renumberEx τ)))
    (hb : ∀ x ∈ b, ∃ k, ∀ j, j ≠ k → x.2 j < x.2 k) : suspects a = suspects b := by
  unfold suspects
  rw [streamThr_move hp, hp.countP_eq, List.countP_map]
  refine List.countP_congr (fun x hx => ?_)
  simp only [Function.comp, decide_eq_true_eq]
  exact offDiagonal_move τ _ x (hb x hx)

section Same

variable {e : Pixel N' h' w' ≃ Pixel N h w} {τ : Equiv.Perm (Fin K)} {labels : Stack N h w (Fin K)}
  {P : Stack N h w (Fin K → ℚ)} {labels' : Stack N' h' w' (Fin K)} {P' : Stack N' h' w' (Fin K → ℚ)}

theorem labelProb_move (hs : SamePixels e τ labels P labels' P') (p : Pixel N' h' w') :
    labelProb labels' P' p = labelProb labels P (e p) := by
  unfold labelProb
  rw [hs.labels p, hs.probs p]

theorem agrees_move [NeZero K] (hs : SamePixels e τ labels P labels' P')
    (ho : ∀ p : Pixel N h w, ∃ k, ∀ j, j ≠ k → P p.1 p.2.1 p.2.2 j < P p.1 p.2.1 p.2.2 k) (p : Pixel N' h' w') :
    agrees labels' P' p.1 p.2.1 p.2.2 = agrees labels P (e p).1 (e p).2.1 (e p).2.2 := by
  unfold agrees
  have hP : P' p.1 p.2.1 p.2.2 = renumberV τ (P (e p).1 (e p).2.1 (e p).2.2) := by
    funext k
    have := hs.probs p (τ.symm k)
    rw [Equiv.apply_symm_apply] at this
    exact this
  rw [hs.labels p, hP, argmax_renumber τ _ (ho (e p))]
  simp

theorem size_move (e : Pixel N' h' w' ≃ Pixel N h w) : N' * (h' * w') = N * (h * w) := by
  have := Fintype.card_congr e
  simpa [Fintype.card_prod] using this

theorem ranked_move (A A' : ArgSort ℚ) [NeZero K] (jobs jobs' : ℕ → Jobs) (b b' : ℕ)
    (hs : SamePixels e τ labels P labels' P') (hne : 0 < N * (h * w)) (hp : ∀ p, 2 / 1000000 ≤ labelProb labels P p)
    (ho : ∀ p : Pixel N h w, ∃ k, ∀ j, j ≠ k → P p.1 p.2.1 p.2.2 j < P p.1 p.2.1 p.2.2 k) :
    ∃ idx idx', rankedIssues A jobs b labels P = .ok idx ∧ rankedIssues A' jobs' b' labels' P' = .ok idx' ∧
      ∀ p : Pixel N' h' w', (∀ q, q ≠ e p → labelProb labels P q ≠ labelProb labels P (e p)) →
        (flatIdx p.1 p.2.1 p.2.2 ∈ idx' ↔ flatIdx (e p).1 (e p).2.1 (e p).2.2 ∈ idx) := by
  obtain ⟨idx, h1, h2⟩ := ranked_mem A jobs b labels P hne hp
  obtain ⟨idx', h1', h2'⟩ := ranked_mem A' jobs' b' labels' P' (by rw [size_move e]; exact hne)
    (fun p => by rw [labelProb_move hs]; exact hp _)
  refine ⟨idx, idx', h1, h1', fun p hu => ?_⟩
  have hu' : ∀ q, q ≠ p → labelProb labels' P' q ≠ labelProb labels' P' p := by
    intro q hq
    rw [labelProb_move hs, labelProb_move hs]
    exact hu _ (fun he => hq (e.injective he))
  have hper := allPixels_perm hs
  rw [h2 (e p) hu, h2' p hu', labelProb_move hs, lowerThan_move hper, suspects_move hper]
  intro x hx
  obtain ⟨n, i, j, rfl⟩ := (mem_allPixels labels P x).mp hx
  exact ho (n, i, j)

/-- **C165.** Which pixels are flagged depends neither on the arrangement of the pixels nor on the numbering of the classes, nor
on batch size, workers and the order of ties: every pixel that no other pixel ties with is flagged in one stack iff it is
flagged in the other. -/
theorem C165_issues (A A' : ArgSort ℚ) [NeZero K] (jobs jobs' : ℕ → Jobs) (b b' : ℕ) (hb : 1 ≤ b) (hb' : 1 ≤ b')
    (hs : SamePixels e τ labels P labels' P') (hne : 0 < N * (h * w))
    (hp : ∀ n i j, 2 / 1000000 ≤ P n i j (labels n i j)) (ho : ∀ n i j, ∃ k, ∀ k', k' ≠ k → P n i j k' < P n i j k) :
    ∃ mask mask', findIssues A jobs b labels P = .ok mask ∧ findIssues A' jobs' b' labels' P' = .ok mask' ∧
      ∀ p : Pixel N' h' w',
        (∀ n i j, (n, i, j) ≠ e p → P n i j (labels n i j) ≠ P' p.1 p.2.1 p.2.2 (labels' p.1 p.2.1 p.2.2)) →
        mask' p.1 p.2.1 p.2.2 = mask (e p).1 (e p).2.1 (e p).2.2 := by
  have ho' : ∀ p : Pixel N h w, ∃ k, ∀ j, j ≠ k → P p.1 p.2.1 p.2.2 j < P p.1 p.2.1 p.2.2 k := fun p => ho _ _ _
  obtain ⟨idx, idx', h1, h1', h2⟩ := ranked_move A A' jobs jobs' b b' hs hne (fun p => hp _ _ _) ho'
  refine ⟨_, _, findIssues_eq A jobs b hb labels P idx h1, findIssues_eq A' jobs' b' hb' labels' P' idx' h1', ?_⟩
  intro p hu
  have hu' : ∀ q, q ≠ e p → labelProb labels P q ≠ labelProb labels P (e p) := by
    intro q hq
    rw [← labelProb_move hs]
    exact hu q.1 q.2.1 q.2.2 hq
  rw [agrees_move hs ho' p, decide_eq_decide.mpr (h2 p hu')]

end Same

/-- The hypotheses can be met: an image of `1 × 3` pixels, mirrored and cut into three images, with the two classes swapped. -/
example : ∃ (e : Pixel 3 1 1 ≃ Pixel 1 1 3), SamePixels e (Equiv.swap 0 1) (fun _ _ => ![0, 0, 1])
    (fun _ _ => ![![3 / 10, 7 / 10], ![9 / 10, 1 / 10], ![2 / 5, 3 / 5]])
    (fun n _ _ => ![0, 1, 1] n) (fun n _ _ => ![![3 / 5, 2 / 5], ![1 / 10, 9 / 10], ![7 / 10, 3 / 10]] n) :=
  ⟨⟨fun p => (0, 0, p.1.rev), fun p => (p.2.2.rev, 0, 0), by decide, by decide⟩, ⟨by decide, by decide +kernel⟩⟩

/-- The second pixel from the right is the wrong one, and the first one is flagged in the other arrangement. -/
example : ((findIssues (stableSort ℚ) (fun _ => .one) 10 (fun (_ : Fin 1) (_ : Fin 1) => (![0, 0, 1] : Fin 3 → Fin 2))
      (fun _ _ => ![![3 / 10, 7 / 10], ![9 / 10, 1 / 10], ![2 / 5, 3 / 5]])).toOption.map
      (fun m => (List.finRange 3).map (fun j => m 0 0 j))) = some [true, false, false] ∧
    ((findIssues (stableSort ℚ) (fun _ => .one) 10 (fun n (_ : Fin 1) (_ : Fin 1) => (![0, 1, 1] : Fin 3 → Fin 2) n)
      (fun n _ _ => ![![3 / 5, 2 / 5], ![1 / 10, 9 / 10], ![7 / 10, 3 / 10]] n)).toOption.map
      (fun m => (List.finRange 3).map (fun n => m n 0 0))) = some [false, false, true] := by
  decide +kernel

/-! ## The scores of the images -/

theorem softmin_equiv {a b : ℕ} [NeZero a] [NeZero b] (f : Fin a ≃ Fin b) (s : Fin b → ℝ) (T : ℝ) :
    Multilabel.softmin (fun r => s (f r)) T = Multilabel.softmin s T := by
  unfold Multilabel.softmin
  simp only [softmax_eq]
  have hsum : ∑ j, Real.exp ((1 - s (f j)) / max T (1 / 1000000)) = ∑ j, Real.exp ((1 - s j) / max T (1 / 1000000)) :=
    Equiv.sum_comp f (fun j => Real.exp ((1 - s j) / max T (1 / 1000000)))
  rw [hsum]
  exact Equiv.sum_comp f (fun k => s k * (Real.exp ((1 - s k) / max T (1 / 1000000)) /
    ∑ j, Real.exp ((1 - s j) / max T (1 / 1000000))))

/-- **C165.** The softmin score of an image depends neither on where in the image the pixels are nor on the numbering of the
classes. -/
theorem C165_softmin {labels : Stack N h w (Fin K)} {P : Stack N h w (Fin K → ℝ)} {labels' : Stack N' h' w' (Fin K)}
    {P' : Stack N' h' w' (Fin K → ℝ)} (τ : Equiv.Perm (Fin K)) (n' : Fin N') (n : Fin N) (π : Fin h' × Fin w' ≃ Fin h × Fin w)
    (hl : ∀ p, labels' n' p.1 p.2 = τ (labels n (π p).1 (π p).2))
    (hP : ∀ p k, P' n' p.1 p.2 (τ k) = P n (π p).1 (π p).2 k) (T : ℝ) :
    imageScoreSoftmin (pixelScores labels' P') T n' = imageScoreSoftmin (pixelScores labels P) T n := by
  have hsize : h' * w' = h * w := by
    have := Fintype.card_congr π
    simpa [Fintype.card_prod] using this
  unfold imageScoreSoftmin
  by_cases hw : h * w = 0
  · rw [dif_pos hw, dif_pos (hsize.trans hw)]
  · rw [dif_neg hw, dif_neg (fun h0 => hw (hsize.symm.trans h0))]
    by_cases hT : T = 0
    · rw [if_pos hT, if_pos hT]
    · rw [if_neg hT, if_neg hT]
      have : NeZero (h * w) := ⟨hw⟩
      have : NeZero (h' * w') := ⟨fun h0 => hw (hsize.symm.trans h0)⟩
      congr 1
      rw [← softmin_equiv (finProdFinEquiv.symm.trans (π.trans finProdFinEquiv))]
      congr 1
      funext r
      unfold pixelScores
      have h1 := hl (r.divNat, r.modNat)
      have h2 := hP (r.divNat, r.modNat) (labels n (π (r.divNat, r.modNat)).1 (π (r.divNat, r.modNat)).2)
      dsimp only at h1 h2
      rw [h1, h2]
      have h3 : ((finProdFinEquiv.symm.trans (π.trans finProdFinEquiv)) r) = finProdFinEquiv (π (r.divNat, r.modNat)) := rfl
      have h4 := finProdFinEquiv.symm_apply_apply (π (r.divNat, r.modNat))
      have h5 : (finProdFinEquiv (π (r.divNat, r.modNat))).divNat = (π (r.divNat, r.modNat)).1 := congrArg Prod.fst h4
      have h6 : (finProdFinEquiv (π (r.divNat, r.modNat))).modNat = (π (r.divNat, r.modNat)).2 := congrArg Prod.snd h4
      rw [h3, h5, h6]

/-- **C165.** The same for the fraction of flagged pixels, if the corresponding pixels are flagged. -/
theorem C165_num_pixel_issues {mask : Stack N h w Bool} {mask' : Stack N' h' w' Bool} (n' : Fin N') (n : Fin N)
    (π : Fin h' × Fin w' ≃ Fin h × Fin w) (hm : ∀ p, mask' n' p.1 p.2 = mask n (π p).1 (π p).2) :
    imageScoresNum mask' n' = imageScoresNum mask n := by
  have hsize : (h' : ℚ) * w' = h * w := by
    have := Fintype.card_congr π
    exact_mod_cast (by simpa [Fintype.card_prod] using this : h' * w' = h * w)
  unfold imageScoresNum
  rw [hsize]
  have e1 : ∑ i, ∑ j, (if mask' n' i j then (1 : ℚ) else 0) = ∑ p : Fin h' × Fin w', if mask' n' p.1 p.2 then (1 : ℚ) else 0 :=
    by rw [Fintype.sum_prod_type]
  have e2 : ∑ i, ∑ j, (if mask n i j then (1 : ℚ) else 0) = ∑ p : Fin h × Fin w, if mask n p.1 p.2 then (1 : ℚ) else 0 :=
    by rw [Fintype.sum_prod_type]
  rw [e1, e2, ← Equiv.sum_comp π]
  simp only [hm]

/-- Two images of `1 × 2` and `2 × 1` pixels, turned. -/
example : ∃ π : Fin 2 × Fin 1 ≃ Fin 1 × Fin 2, π (0, 0) = (0, 1) ∧ π (1, 0) = (0, 0) :=
  ⟨⟨fun p => (0, p.1.rev), fun p => (p.2.rev, 0), by decide, by decide⟩, by decide⟩

/-! ## C166: down-sampling -/

/-- One image of `2 × 2` pixels whose upper half is of class 0 and whose lower half is of class `c`. -/
def halves (c : Fin 3) : Stack 1 (1 * 2) (1 * 2) (Fin 3) := fun _ y _ => if y.val = 0 then 0 else c

/-- The model is sure of the given label except in the lower right corner, which it takes for class 0. -/
def halvesProbs (c : Fin 3) : Stack 1 (1 * 2) (1 * 2) (Fin 3 → ℚ) := fun _ y x k =>
  if y.val = 0 ∨ x.val = 1 then (if k = 0 then 9 / 10 else 1 / 20) else (if k = c then 9 / 10 else 1 / 20)

/-- **C166**, refuted: whether the wrong label in the corner is found depends on whether the other class is called 1 or 2, because
the label of a block is the rounded mean of the numbers of its classes: 1 for classes 0 and 2, although no pixel has that label,
and 0 for classes 0 and 1. -/
theorem C166_not_numbering :
    ((findIssuesDown (stableSort ℚ) (fun _ => .one) 10000 (halves 2) (halvesProbs 2)).toOption.map
      (fun m => (List.finRange 2).map (fun y => (List.finRange 2).map (fun x => m 0 y x)))) =
        some [[false, false], [false, true]] ∧
    ((findIssuesDown (stableSort ℚ) (fun _ => .one) 10000 (halves 1) (halvesProbs 1)).toOption.map
      (fun m => (List.finRange 2).map (fun y => (List.finRange 2).map (fun x => m 0 y x)))) =
        some [[false, false], [false, false]] ∧
    (smallLabels (h := 1) (w := 1) (d := 2) (halves 2) 0 0 0 = 1 ∧ smallLabels (h := 1) (w := 1) (d := 2) (halves 1) 0 0 0 = 0) ∧
    ∀ y x, halves 1 0 y x = Equiv.swap 1 2 (halves 2 0 y x) ∧
      ∀ k, halvesProbs 1 0 y x (Equiv.swap 1 2 k) = halvesProbs 2 0 y x k := by
  decide +kernel

/-- The share of class `k` in the probabilities of a block. -/
def blockShare (P : Stack N (h * d) (w * d) (Fin K → ℚ)) (n : Fin N) (i : Fin h) (j : Fin w) (k : Fin K) : ℚ :=
  (∑ a : Fin d, ∑ b : Fin d, P n (up i a) (up j b) k) / (∑ k, ∑ a : Fin d, ∑ b : Fin d, P n (up i a) (up j b) k)

theorem smallLabels_const [NeZero K] (hd : 0 < d) (labels : Stack N (h * d) (w * d) (Fin K)) (n : Fin N) (i : Fin h) (j : Fin w)
    (k : Fin K) (hk : ∀ a b : Fin d, labels n (up i a) (up j b) = k) : smallLabels labels n i j = k := by
  have h1 := smallLabels_eq labels n i j
  have hd' : (d : ℚ) * d ≠ 0 := by positivity
  have h2 : (∑ a : Fin d, ∑ b : Fin d, ((labels n (up i a) (up j b)).val : ℚ)) / (d * d) = ((k.val : ℤ) : ℚ) := by
    simp only [hk, Finset.sum_const, Finset.card_univ, Fintype.card_fin, nsmul_eq_mul]
    rw [← mul_assoc, mul_div_assoc, mul_comm, div_mul_cancel₀ _ hd']
    simp
  rw [h2, rint_intCast] at h1
  exact Fin.ext (by exact_mod_cast h1)

/-- **C166**, what holds: if all pixels of a block have the same label, the numbering of the classes does not matter. -/
theorem C166_numbering_partial (A A' : ArgSort ℚ) [NeZero K] (jobs jobs' : ℕ → Jobs) (b b' : ℕ) (hb : 1 ≤ b) (hb' : 1 ≤ b')
    (hd : 0 < d) (τ : Equiv.Perm (Fin K)) (labels labels' : Stack N (h * d) (w * d) (Fin K))
    (P P' : Stack N (h * d) (w * d) (Fin K → ℚ)) (hne : 0 < N * (h * w))
    (hl : ∀ n y x, labels' n y x = τ (labels n y x)) (hP : ∀ n y x k, P' n y x (τ k) = P n y x k)
    (block : Stack N h w (Fin K)) (hblock : ∀ n i j (a c : Fin d), labels n (up i a) (up j c) = block n i j)
    (hsum : ∀ n (i : Fin h) (j : Fin w), ∑ k, ∑ a : Fin d, ∑ c : Fin d, P n (up i a) (up j c) k ≠ 0)
    (hp : ∀ n i j, 2 / 1000000 ≤ blockShare P n i j (block n i j))
    (hbest : ∀ n (i : Fin h) (j : Fin w), ∃ k, ∀ k', k' ≠ k → blockShare P n i j k' < blockShare P n i j k)
    (ho : ∀ n y x, ∃ k, ∀ k', k' ≠ k → P n y x k' < P n y x k) :
    ∃ mask mask', findIssuesDown A jobs b labels P = .ok mask ∧ findIssuesDown A' jobs' b' labels' P' = .ok mask' ∧
      ∀ n i j, (∀ n' i' j', (n', i', j') ≠ (n, i, j) →
          blockShare P n' i' j' (block n' i' j') ≠ blockShare P n i j (block n i j)) →
        ∀ a c : Fin d, mask' n (up i a) (up j c) = mask n (up i a) (up j c) := by
  have hsP : smallProbs (h := h) (w := w) P = blockShare P := by
    funext n i j k; exact smallProbs_eq hd P n i j k
  have hsP' : smallProbs (h := h) (w := w) P' = blockShare P' := by
    funext n i j k; exact smallProbs_eq hd P' n i j k
  have hsl : smallLabels (h := h) (w := w) labels = block := by
    funext n i j; exact smallLabels_const hd labels n i j _ (hblock n i j)
  have hsl' : smallLabels (h := h) (w := w) labels' = fun n i j => τ (block n i j) := by
    funext n i j; exact smallLabels_const hd labels' n i j _ (fun a c => by rw [hl, hblock])
  have htot : ∀ n (i : Fin h) (j : Fin w), ∑ k, ∑ a : Fin d, ∑ c : Fin d, P' n (up i a) (up j c) k =
      ∑ k, ∑ a : Fin d, ∑ c : Fin d, P n (up i a) (up j c) k := by
    intro n i j
    rw [← Equiv.sum_comp τ]
    simp only [hP]
  have hshare : ∀ n i j k, blockShare (h := h) (w := w) P' n i j (τ k) = blockShare P n i j k := by
    intro n i j k
    unfold blockShare
    rw [htot]
    simp only [hP]
  have hnan : ∀ (Q : Stack N (h * d) (w * d) (Fin K → ℚ)),
      (∀ n (i : Fin h) (j : Fin w), ∑ k, ∑ a : Fin d, ∑ c : Fin d, Q n (up i a) (up j c) k ≠ 0) →
      ∀ n (i : Fin h) (j : Fin w), ∑ k, blockProbs Q n i j k ≠ 0 := by
    intro Q hQ n i j
    have hd' : (d : ℚ) * d ≠ 0 := by positivity
    unfold blockProbs blockMean
    rw [← Finset.sum_div]
    exact div_ne_zero (hQ n i j) hd'
  have hs : SamePixels (Equiv.refl (Pixel N h w)) τ (smallLabels labels) (smallProbs P) (smallLabels labels') (smallProbs P') := by
    rw [hsP, hsP', hsl, hsl']
    exact ⟨fun p => rfl, fun p k => hshare _ _ _ _⟩
  obtain ⟨idx, idx', h1, h1', h2⟩ := ranked_move A A' jobs jobs' b b' hs hne
    (fun p => by unfold labelProb; rw [hsP, hsl]; exact hp _ _ _) (fun p => by rw [hsP]; exact hbest _ _ _)
  refine ⟨_, _, findIssuesDown_eq A jobs b hb hd labels P (hnan P hsum) idx h1,
    findIssuesDown_eq A' jobs' b' hb' hd labels' P' (hnan P' (fun n i j => by rw [htot]; exact hsum n i j)) idx' h1', ?_⟩
  intro n i j hu a c
  have hdiv : ∀ {m : ℕ} (i : Fin m) (a : Fin d), (up i a).divNat = i := by
    intro m i a
    apply Fin.ext
    exact (div_mod_add i.val _ d a.isLt).1
  have h3 := h2 (n, i, j) (by
    intro q hq
    unfold labelProb
    rw [hsP, hsl]
    exact hu q.1 q.2.1 q.2.2 hq)
  have hag : agrees labels' P' n (up i a) (up j c) = agrees labels P n (up i a) (up j c) :=
    agrees_move (e := Equiv.refl _) (τ := τ) ⟨fun p => hl _ _ _, fun p k => hP _ _ _ _⟩ (fun p => ho _ _ _) (n, up i a, up j c)
  rw [hdiv, hdiv, hag, decide_eq_decide.mpr h3]
  rfl

/-- The hypotheses can be met: two blocks, one of class 0 and one of class 2. -/
example : ∃ (labels : Stack 2 (1 * 2) (1 * 2) (Fin 3)) (P : Stack 2 (1 * 2) (1 * 2) (Fin 3 → ℚ)) (block : Stack 2 1 1 (Fin 3)),
    (∀ n i j (a c : Fin 2), labels n (up i a) (up j c) = block n i j) ∧
    (∀ n i j, 2 / 1000000 ≤ blockShare P n i j (block n i j)) ∧
    (∀ n (i : Fin 1) (j : Fin 1), ∃ k, ∀ k', k' ≠ k → blockShare P n i j k' < blockShare P n i j k) ∧
    (∀ n y x, ∃ k, ∀ k', k' ≠ k → P n y x k' < P n y x k) ∧
    blockShare P 0 (0 : Fin 1) (0 : Fin 1) (block 0 0 0) ≠ blockShare P 1 (0 : Fin 1) (0 : Fin 1) (block 1 0 0) :=
  ⟨fun n _ _ => ![0, 2] n, fun n _ _ => ![![1 / 2, 1 / 4, 1 / 4], ![3 / 5, 1 / 5, 1 / 5]] n, fun n _ _ => ![0, 2] n,
    by decide +kernel⟩

end Cleanlab.Props
