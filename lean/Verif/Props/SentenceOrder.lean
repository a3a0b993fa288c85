import Verif.Props.Token
import Verif.Props.ExampleOrder

/-!
# C145: neither the order of the sentences nor the division into sentences matters

`labels` and `probs` are nested lists. Sentences in another order are `L ∘ τ`, `Q ∘ τ` for a permutation `τ`: sentence `i`
of the new data set is sentence `τ i` of the original.
-/

namespace Cleanlab.Props

open Np Cleanlab.Util Cleanlab.Count Cleanlab.Rank Cleanlab.Filter Cleanlab.Batched Cleanlab.Token Cleanlab.Spec

variable {K : ℕ}

/-! ### Flat positions -/

theorem positions_of_lookup {α : Type} (xs : List (List α)) {n : ℕ} (idx : List (Fin n)) (m : List (ℕ × ℕ))
    (h : idx.mapM (fun r => lookup (xs.map List.length) r.val) = .ok m) :
    m.map (fun p => tokensBefore xs p.1 p.2) = idx.map Fin.val := by
  induction idx generalizing m with
  | nil =>
    obtain rfl := Except.ok.inj h
    rfl
  | cons r idx ih =>
    rw [List.mapM_cons] at h
    cases h1 : lookup (xs.map List.length) r.val with
    | error e => rw [h1] at h; cases h
    | ok p =>
      cases h2 : idx.mapM (fun r => lookup (xs.map List.length) r.val) with
      | error e => rw [h1, h2] at h; cases h
      | ok m' =>
        rw [h1, h2] at h
        obtain rfl := Except.ok.inj h
        obtain ⟨row, -, -, hr⟩ := (lookup_eq_iff xs r.val p.1 p.2).mp h1
        rw [List.map_cons, List.map_cons, ih m' h2, ← hr]

theorem tokensBefore_lt {α : Type} (xs : List (List α)) (i j : ℕ) (row : List α) (h1 : xs[i]? = some row)
    (h2 : j < row.length) : tokensBefore xs i j < xs.flatten.length := by
  have := flatten_get xs i j row _ h1 (List.getElem?_eq_getElem h2)
  exact (List.getElem?_eq_some_iff.mp this).1

/-! ### The division into sentences -/

/-- **C145.** Where one sentence ends and the next begins has no influence: for the same tokens in the same order, the same
tokens are returned in the same order. -/
theorem C145_boundaries {α : Type} [LinearOrder α] (A : ArgSort ℚ) (A' : ArgSort α) [NeZero K] (score : Scorer K α)
    (labels labels' : List (List (Fin K))) (probs probs' : List (List (Fin K → ℚ))) (args : Args K)
    (hl : labels'.flatten = labels.flatten) (hp : probs'.flatten = probs.flatten) (l : List (ℕ × ℕ))
    (h : Token.findLabelIssues A A' score labels probs args = .ok l) :
    ∃ l', Token.findLabelIssues A A' score labels' probs' args = .ok l' ∧
      l'.map (fun p => tokensBefore labels' p.1 p.2) = l.map (fun p => tokensBefore labels p.1 p.2) := by
  have hd : flattenData labels' probs' = flattenData labels probs := by unfold flattenData; rw [hl, hp]
  unfold Token.findLabelIssues at h ⊢
  rw [hd]
  cases hf : flattenData labels probs with
  | error e => rw [hf] at h; cases h
  | ok data =>
    rw [hf] at h
    have hlen : data.length ≤ labels'.flatten.length := by
      unfold flattenData at hf
      split_ifs at hf
      rw [← Except.ok.inj hf, hl, List.length_zip]
      exact min_le_left _ _
    dsimp only [bind, Except.bind] at h ⊢
    cases hs : score data.length (labelsOf data) (probsOf data) with
    | error e => rw [hs] at h; cases h
    | ok s =>
      rw [hs] at h
      dsimp only at h ⊢
      cases hi : findRankedChecked A A' (labelsOf data) (probsOf data) args s with
      | error e => rw [hi] at h; cases h
      | ok idx =>
        rw [hi] at h
        dsimp only at h ⊢
        obtain ⟨l', h1, -⟩ := mapM_exists idx (fun r => lookup (labels'.map List.length) r.val) (fun _ _ => True) (fun r _ => by
          obtain ⟨i, j, row, h1, -⟩ := lookup_spec labels' r.val (lt_of_lt_of_le r.isLt hlen)
          exact ⟨_, h1, trivial⟩)
        exact ⟨l', h1, by rw [positions_of_lookup _ _ _ h1, positions_of_lookup _ _ _ h]⟩

/-- **C145.** With `low_memory=True` likewise. -/
theorem C145_boundaries_low_memory (A : ArgSort ℚ) [NeZero K] (score : (Fin K → ℚ) → Ex K → ℚ) (jobs : ℕ → Jobs)
    (batchSize : ℕ) (labels labels' : List (List (Fin K))) (probs probs' : List (List (Fin K → ℚ)))
    (hl : labels'.flatten = labels.flatten) (hp : probs'.flatten = probs.flatten) (l : List (ℕ × ℕ))
    (h : findLabelIssuesLowMemory A score jobs batchSize labels probs = some (.ok l)) :
    ∃ l', findLabelIssuesLowMemory A score jobs batchSize labels' probs' = some (.ok l') ∧
      l'.map (fun p => tokensBefore labels' p.1 p.2) = l.map (fun p => tokensBefore labels p.1 p.2) := by
  have hd : flattenData labels' probs' = flattenData labels probs := by unfold flattenData; rw [hl, hp]
  unfold findLabelIssuesLowMemory at h ⊢
  rw [hd]
  cases hf : flattenData labels probs with
  | error e => rw [hf] at h; cases h
  | ok data =>
    rw [hf] at h
    have hlen : data.length ≤ labels'.flatten.length := by
      unfold flattenData at hf
      split_ifs at hf
      rw [← Except.ok.inj hf, hl, List.length_zip]
      exact min_le_left _ _
    dsimp only at h ⊢
    cases hb : findLabelIssuesBatchedIndices A score false jobs batchSize data with
    | none => rw [hb] at h; cases h
    | some r =>
      rw [hb] at h
      cases r with
      | error e => cases h
      | ok idx =>
        have h' := Option.some.inj h
        dsimp only [Except.bind] at h'
        obtain ⟨l', h1, -⟩ := mapM_exists idx (fun r => lookup (labels'.map List.length) r.val) (fun _ _ => True) (fun r _ => by
          obtain ⟨i, j, row, h1, -⟩ := lookup_spec labels' r.val (lt_of_lt_of_le r.isLt hlen)
          exact ⟨_, h1, trivial⟩)
        refine ⟨l', congrArg some h1, by rw [positions_of_lookup _ _ _ h1, positions_of_lookup _ _ _ h']⟩

/-- **C145.** The scores of the tokens do not depend on the division either. -/
theorem C145_boundaries_scores {α : Type} (score : Scorer K α) (labels labels' : List (List (Fin K)))
    (probs probs' : List (List (Fin K → ℚ))) (hl : labels'.flatten = labels.flatten) (hp : probs'.flatten = probs.flatten)
    (t : List (List α)) (h : tokenScores score labels probs = .ok t) :
    ∃ t', tokenScores score labels' probs' = .ok t' ∧ t'.flatten = t.flatten := by
  have hd : flattenData labels' probs' = flattenData labels probs := by unfold flattenData; rw [hl, hp]
  unfold tokenScores at h ⊢
  rw [hd]
  cases hf : flattenData labels probs with
  | error e => rw [hf] at h; cases h
  | ok data =>
    rw [hf] at h
    have hlen : data.length = labels.flatten.length := by
      unfold flattenData at hf
      split_ifs at hf with hne
      rw [← Except.ok.inj hf, List.length_zip, ← not_not.mp hne, min_self]
    dsimp only [bind, Except.bind] at h ⊢
    cases hs : score data.length (labelsOf data) (probsOf data) with
    | error e => rw [hs] at h; cases h
    | ok s =>
      rw [hs] at h
      dsimp only at h ⊢
      obtain ⟨t', h1, h2, -⟩ := nestedList_spec labels' (List.ofFn s) (by rw [List.length_ofFn, hlen, hl])
      obtain ⟨t1, h3, h4, -⟩ := nestedList_spec labels (List.ofFn s) (by rw [List.length_ofFn, hlen])
      rw [h] at h3
      obtain rfl := Except.ok.inj h3
      exact ⟨t', h1, h2.trans h4.symm⟩

/-- Five tokens, as two sentences and as three: the same token is returned, with its place in each division. -/
example : (Token.findLabelIssues (stableSort ℚ) (stableSort ℚ) (methodScorer .selfConfidence) [[(0 : Fin 2), 0, 1], [0, 1]]
      [[![9/10, 1/10], ![7/10, 3/10], ![1/20, 19/20]], [![4/5, 1/5], ![4/5, 1/5]]]
      { filterBy := .predictedNeqGiven }).toOption = some [(1, 1)] ∧
    (Token.findLabelIssues (stableSort ℚ) (stableSort ℚ) (methodScorer .selfConfidence) [[(0 : Fin 2)], [], [0, 1, 0, 1]]
      [[![9/10, 1/10]], [], [![7/10, 3/10], ![1/20, 19/20], ![4/5, 1/5], ![4/5, 1/5]]]
      { filterBy := .predictedNeqGiven }).toOption = some [(2, 3)] := by decide +kernel

/-! ### The order of the sentences -/

section Order

variable {m : ℕ} (L : Fin m → List (Fin K)) (Q : Fin m → List (Fin K → ℚ)) (τ : Equiv.Perm (Fin m))

/-- The tokens of the data set, one after the other. -/
def flatTokens : List (Ex K) := (List.ofFn L).flatten.zip (List.ofFn Q).flatten

theorem shape_ofFn (h : ∀ i, (L i).length = (Q i).length) :
    (List.ofFn L).map List.length = (List.ofFn Q).map List.length := by
  rw [List.map_ofFn, List.map_ofFn]
  exact congrArg _ (funext h)

theorem length_reorder : (List.ofFn (fun i => L (τ i))).flatten.length = (List.ofFn L).flatten.length := by
  rw [List.length_flatten, List.length_flatten, List.map_ofFn, List.map_ofFn, List.sum_ofFn, List.sum_ofFn]
  exact Equiv.sum_comp τ (fun i => (L i).length)

theorem isToken_ofFn (i : Fin m) (j : ℕ) (y : Fin K) (q : Fin K → ℚ) :
    IsToken (List.ofFn L) (List.ofFn Q) i j y q ↔ (L i)[j]? = some y ∧ (Q i)[j]? = some q := by
  unfold IsToken
  simp

/-- The same tokens: for every order of the sentences there is a rearrangement of the flat positions. -/
theorem exists_rearrangement (h : ∀ i, (L i).length = (Q i).length) :
    ∃ e : Fin (flatTokens (fun i => L (τ i)) (fun i => Q (τ i))).length ≃ Fin (flatTokens L Q).length,
      (∀ r, labelsOf (flatTokens (fun i => L (τ i)) (fun i => Q (τ i))) r = labelsOf (flatTokens L Q) (e r)) ∧
      (∀ r, probsOf (flatTokens (fun i => L (τ i)) (fun i => Q (τ i))) r = probsOf (flatTokens L Q) (e r)) ∧
      ∀ r (i : Fin m) j, j < (L (τ i)).length → (r.val = tokensBefore (List.ofFn (fun i => L (τ i))) i j ↔
        (e r).val = tokensBefore (List.ofFn L) (τ i) j) := by
  obtain ⟨-, hlen⟩ := flattenData_eq _ _ (shape_ofFn L Q h)
  obtain ⟨-, hlen'⟩ := flattenData_eq _ _ (shape_ofFn (fun i => L (τ i)) (fun i => Q (τ i)) (fun i => h (τ i)))
  have hget : ∀ i : Fin m, (List.ofFn L)[(i : ℕ)]? = some (L i) := fun i => by simp
  have hget' : ∀ i : Fin m, (List.ofFn (fun i => L (τ i)))[(i : ℕ)]? = some (L (τ i)) := fun i => by simp
  have hpos : ∀ r : Fin (flatTokens (fun i => L (τ i)) (fun i => Q (τ i))).length, ∃ (i : Fin m) (j : ℕ),
      j < (L (τ i)).length ∧ r.val = tokensBefore (List.ofFn (fun i => L (τ i))) i j := by
    intro r
    obtain ⟨i, j, row, -, h2, h3, h4⟩ := lookup_spec (List.ofFn (fun i => L (τ i))) r.val (hlen' ▸ r.isLt)
    have hi : i < m := by
      have := (List.getElem?_eq_some_iff.mp h2).1
      simpa using this
    have := hget' ⟨i, hi⟩
    rw [h2] at this
    rw [Option.some.inj this] at h3
    exact ⟨⟨i, hi⟩, j, h3, h4⟩
  choose fi fj hj hr using hpos
  -- a flat position determines its sentence and token
  have huniq : ∀ (X : Fin m → List (Fin K)) (i i' : Fin m) (j j' : ℕ), j < (X i).length → j' < (X i').length →
      tokensBefore (List.ofFn X) i j = tokensBefore (List.ofFn X) i' j' → i = i' ∧ j = j' := by
    intro X i i' j j' h1 h2 he
    have a := (lookup_eq_iff (List.ofFn X) (tokensBefore (List.ofFn X) i j) i j).mpr
      ⟨X i, by simp, h1, rfl⟩
    have b := (lookup_eq_iff (List.ofFn X) (tokensBefore (List.ofFn X) i j) i' j').mpr
      ⟨X i', by simp, h2, he⟩
    rw [a] at b
    have := Except.ok.inj b
    simp only [Prod.mk.injEq] at this
    exact ⟨Fin.ext this.1, this.2⟩
  let f : Fin (flatTokens (fun i => L (τ i)) (fun i => Q (τ i))).length → Fin (flatTokens L Q).length := fun r =>
    ⟨tokensBefore (List.ofFn L) (τ (fi r)) (fj r), by
      have := tokensBefore_lt (List.ofFn L) (τ (fi r)) (fj r) _ (hget _) (hj r)
      exact lt_of_lt_of_eq this hlen.symm⟩
  have hinj : Function.Injective f := by
    intro r r' he
    have he' : tokensBefore (List.ofFn L) (τ (fi r)) (fj r) = tokensBefore (List.ofFn L) (τ (fi r')) (fj r') := congrArg Fin.val he
    obtain ⟨h1, h2⟩ := huniq L _ _ _ _ (hj r) (hj r') he'
    apply Fin.ext
    rw [hr r, hr r', τ.injective h1, h2]
  have hcard : Fintype.card (Fin (flatTokens (fun i => L (τ i)) (fun i => Q (τ i))).length) =
      Fintype.card (Fin (flatTokens L Q).length) := by
    rw [Fintype.card_fin, Fintype.card_fin]
    exact hlen'.trans ((length_reorder L τ).trans hlen.symm)
  have hbij := (Fintype.bijective_iff_injective_and_card f).mpr ⟨hinj, hcard⟩
  have htok : ∀ r, labelsOf (flatTokens (fun i => L (τ i)) (fun i => Q (τ i))) r = labelsOf (flatTokens L Q) (f r) ∧
      probsOf (flatTokens (fun i => L (τ i)) (fun i => Q (τ i))) r = probsOf (flatTokens L Q) (f r) := by
    intro r
    have a := (isToken_ofFn _ _ _ _ _ _).mp (isToken_of _ _ (shape_ofFn (fun i => L (τ i)) (fun i => Q (τ i)) (fun i => h (τ i))) r (fi r) (fj r) _
      (hget' _) (hj r) (hr r))
    have b := (isToken_ofFn _ _ _ _ _ _).mp (isToken_of _ _ (shape_ofFn L Q h) (f r) (τ (fi r)) (fj r) _ (hget _) (hj r) rfl)
    exact ⟨Option.some.inj (a.1.symm.trans b.1), Option.some.inj (a.2.symm.trans b.2)⟩
  refine ⟨Equiv.ofBijective f hbij, fun r => (htok r).1, fun r => (htok r).2, ?_⟩
  intro r i j hij
  show _ ↔ tokensBefore (List.ofFn L) (τ (fi r)) (fj r) = _
  rw [hr r]
  constructor
  · intro he
    obtain ⟨h1, h2⟩ := huniq (fun i => L (τ i)) _ _ _ _ (hj r) hij he
    rw [h1, h2]
  · intro he
    obtain ⟨h1, h2⟩ := huniq L _ _ _ _ (hj r) hij he
    rw [τ.injective h1, h2]

end Order

theorem scores_equiv {n n' : ℕ} (e : Fin n' ≃ Fin n) (mth : Method) (labels : Fin n → Fin K) (P : Fin n → Fin K → ℚ)
    (s : Fin n → ℚ) (h : scoresChecked mth labels P = .ok s) :
    scoresChecked mth (fun i => labels (e i)) (fun i => P (e i)) = .ok (fun i => s (e i)) := by
  obtain rfl : n' = n := by simpa using Fintype.card_congr e
  unfold scoresChecked at h ⊢
  cases hv : validate true labels P with
  | error e => rw [hv] at h; cases h
  | ok u =>
    rw [hv] at h
    obtain ⟨h1, -, h3⟩ := (validate_iff _ _ _).mp hv
    rw [(validate_iff _ _ _).mpr ⟨h1, Or.inl rfl, fun i k => h3 (e i) k⟩]
    dsimp only [bind, Except.bind] at h ⊢
    rw [C120_scores, h]
    rfl

theorem ranked_equiv {n n' : ℕ} [NeZero K] (A A' : ArgSort ℚ) (e : Fin n' ≃ Fin n) (labels : Fin n → Fin K)
    (P : Fin n → Fin K → ℚ) (args : Args K) (s : Fin n → ℚ) (h : NoTies args.filterBy labels P) (l : List (Fin n))
    (hl : findRankedChecked A A' labels P args s = .ok l) :
    ∃ l', findRankedChecked A A' (fun i => labels (e i)) (fun i => P (e i)) args (fun i => s (e i)) = .ok l' ∧
      (l'.map e).Perm l ∧ l'.map (fun i => s (e i)) = l.map s := by
  obtain rfl : n' = n := by simpa using Fintype.card_congr e
  obtain ⟨mask, hm, -⟩ := findRankedChecked_mask A A' labels P args s l hl
  have hm' := (C120_find_partial A e labels P args h mask).mpr hm
  have hl' := findRankedChecked_ok A A' _ _ args (fun i => s (e i)) _ hm'
  exact ⟨_, hl', C120_ranked_partial A A' e labels P args s h l _ hl hl'⟩

/-- **C145.** The scores of the tokens move with their sentence. -/
theorem C145_scores (mth : Method) {m : ℕ} (L : Fin m → List (Fin K)) (Q : Fin m → List (Fin K → ℚ)) (τ : Equiv.Perm (Fin m))
    (hshape : ∀ i, (L i).length = (Q i).length) (t : List (List ℚ))
    (h : tokenScores (methodScorer mth) (List.ofFn L) (List.ofFn Q) = .ok t) :
    ∃ t', tokenScores (methodScorer mth) (List.ofFn (fun i => L (τ i))) (List.ofFn (fun i => Q (τ i))) = .ok t' ∧
      ∀ i : Fin m, t'[(i : ℕ)]? = t[(τ i : ℕ)]? := by
  obtain ⟨e, h1, h2, h3⟩ := exists_rearrangement L Q τ hshape
  have hd := (flattenData_eq _ _ (shape_ofFn L Q hshape)).1
  cases hs : methodScorer mth _ (labelsOf (flatTokens L Q)) (probsOf (flatTokens L Q)) with
  | error err =>
    unfold tokenScores at h
    rw [hd] at h
    dsimp only [bind, Except.bind] at h
    unfold flatTokens at hs
    rw [hs] at h
    cases h
  | ok s =>
    have hs' := scores_equiv e mth _ _ s hs
    rw [← funext h1, ← funext h2] at hs'
    obtain ⟨t1, ht1, hlen1, hv1⟩ := C67_token_scores (methodScorer mth) _ _ (shape_ofFn L Q hshape) s hs
    obtain ⟨t', ht', hlen', hv'⟩ := C67_token_scores (methodScorer mth) _ _
      (shape_ofFn (fun i => L (τ i)) (fun i => Q (τ i)) (fun i => hshape (τ i))) _ hs'
    rw [h] at ht1
    obtain rfl := Except.ok.inj ht1
    refine ⟨t', ht', fun i => ?_⟩
    have hl1 : t.length = m := by simpa using congrArg List.length hlen1
    have hl' : t'.length = m := by simpa using congrArg List.length hlen'
    have g1 : t[(τ i : ℕ)]? = some (t[(τ i : ℕ)]'(by omega)) := List.getElem?_eq_getElem _
    have g' : t'[(i : ℕ)]? = some (t'[(i : ℕ)]'(by omega)) := List.getElem?_eq_getElem _
    have len1 : (t[(τ i : ℕ)]'(by omega)).length = (L (τ i)).length := by
      have := congrArg (fun l => l[(τ i : ℕ)]?) hlen1
      simpa [List.getElem?_map, g1] using this
    have len' : (t'[(i : ℕ)]'(by omega)).length = (L (τ i)).length := by
      have := congrArg (fun l => l[(i : ℕ)]?) hlen'
      simpa [List.getElem?_map, g'] using this
    rw [g1, g']
    congr 1
    refine List.ext_getElem (len'.trans len1.symm) (fun j a b => ?_)
    obtain ⟨r', e1, e2⟩ := hv' i j _ _ g' (List.getElem?_eq_getElem a)
    obtain ⟨r, e3, e4⟩ := hv1 (τ i) j _ _ g1 (List.getElem?_eq_getElem b)
    have := (h3 r' i j (len' ▸ a)).mp e1
    have hre : r = e r' := Fin.ext (e3.trans this.symm)
    rw [← e2, ← e4, hre]

/-- **C145.** So the sentences have the same scores, whichever way they are computed from those of the tokens. -/
theorem C145_sentence_scores {α β : Type} {m : ℕ} (τ : Equiv.Perm (Fin m)) (t t' : List (List α))
    (ht : t.length = m) (ht' : t'.length = m) (h : ∀ i : Fin m, t'[(i : ℕ)]? = t[(τ i : ℕ)]?)
    (f : List α → Except String β) (v : List β) (hv : t.mapM f = .ok v) :
    ∃ v', t'.mapM f = .ok v' ∧ ∀ i : Fin m, v'[(i : ℕ)]? = v[(τ i : ℕ)]? := by
  have hok : ∀ (t : List (List α)) (v : List β), t.mapM f = .ok v → v.length = t.length ∧
      ∀ (i : ℕ) x, t[i]? = some x → ∃ y, f x = .ok y ∧ v[i]? = some y := by
    intro t
    induction t with
    | nil =>
      intro v hv
      obtain rfl := Except.ok.inj hv
      simp
    | cons x t ih =>
      intro v hv
      rw [List.mapM_cons] at hv
      cases h1 : f x with
      | error e => rw [h1] at hv; cases hv
      | ok y =>
        cases h2 : t.mapM f with
        | error e => rw [h1, h2] at hv; cases hv
        | ok w =>
          rw [h1, h2] at hv
          obtain rfl := Except.ok.inj hv
          obtain ⟨a, b⟩ := ih w h2
          refine ⟨by simp [a], fun i z hz => ?_⟩
          cases i with
          | zero =>
            simp only [List.getElem?_cons_zero, Option.some.injEq] at hz
            exact ⟨y, hz ▸ h1, by simp⟩
          | succ i =>
            rw [List.getElem?_cons_succ] at hz
            obtain ⟨y', c, d⟩ := b i z hz
            exact ⟨y', c, by rw [List.getElem?_cons_succ]; exact d⟩
  obtain ⟨hvl, hvv⟩ := hok t v hv
  obtain ⟨v', hv', hvl', -⟩ := mapM_exists t' f (fun _ _ => True) (fun x hx => by
    obtain ⟨i, hi, rfl⟩ := List.getElem_of_mem hx
    have := h ⟨i, by omega⟩
    dsimp only at this
    rw [List.getElem?_eq_getElem hi] at this
    obtain ⟨y, a, -⟩ := hvv _ _ this.symm
    exact ⟨y, a, trivial⟩)
  refine ⟨v', hv', fun i => ?_⟩
  have hi : (i : ℕ) < t'.length := by omega
  have hi2 : t[(τ i : ℕ)]? = some t'[(i : ℕ)] := by rw [← h i]; exact List.getElem?_eq_getElem hi
  obtain ⟨y, a, b⟩ := hvv _ _ hi2
  obtain ⟨y', a', b'⟩ := (hok t' v' hv').2 i _ (List.getElem?_eq_getElem hi)
  rw [a] at a'
  rw [b, b', Except.ok.inj a']

theorem mapM_of_lookup {α : Type} (xs : List (List α)) {n : ℕ} (idx : List (Fin n)) (l : List (ℕ × ℕ))
    (h : idx.mapM (fun r => lookup (xs.map List.length) r.val) = .ok l) {β : Type} (g : ℕ × ℕ → Except String β) (s : Fin n → β)
    (hg : ∀ r p, lookup (xs.map List.length) r.val = .ok p → g p = .ok (s r)) : l.mapM g = .ok (idx.map s) := by
  induction idx generalizing l with
  | nil =>
    obtain rfl := Except.ok.inj h
    rfl
  | cons r idx ih =>
    rw [List.mapM_cons] at h
    cases h1 : lookup (xs.map List.length) r.val with
    | error e => rw [h1] at h; cases h
    | ok p =>
      cases h2 : idx.mapM (fun r => lookup (xs.map List.length) r.val) with
      | error e => rw [h1, h2] at h; cases h
      | ok m' =>
        rw [h1, h2] at h
        obtain rfl := Except.ok.inj h
        rw [List.mapM_cons, hg r p h1, ih m' h2]
        rfl

theorem get2_of_tokenScores (score : Scorer K ℚ) (labels : List (List (Fin K))) (probs : List (List (Fin K → ℚ)))
    (hshape : labels.map List.length = probs.map List.length)
    (s : Fin (labels.flatten.zip probs.flatten).length → ℚ) (hs : score _ (labelsOf _) (probsOf _) = .ok s)
    (t : List (List ℚ)) (ht : tokenScores score labels probs = .ok t) (r : Fin (labels.flatten.zip probs.flatten).length)
    (p : ℕ × ℕ) (hp : lookup (labels.map List.length) r.val = .ok p) : get2 t p = .ok (s r) := by
  obtain ⟨t1, ht1, hlen, hv⟩ := C67_token_scores score labels probs hshape s hs
  rw [ht] at ht1
  obtain rfl := Except.ok.inj ht1
  obtain ⟨row, h1, h2, h3⟩ := (lookup_eq_iff labels r.val p.1 p.2).mp hp
  have hl := congrArg (fun l => l[p.1]?) hlen
  simp only [List.getElem?_map, h1, Option.map_some] at hl
  obtain ⟨row', h4, h5⟩ := Option.map_eq_some_iff.mp hl
  have h6 : row'[p.2]? = some (row'[p.2]'(by omega)) := List.getElem?_eq_getElem _
  obtain ⟨r', h7, h8⟩ := hv p.1 p.2 row' _ h4 h6
  have : r' = r := Fin.ext (h7.trans h3.symm)
  unfold get2
  rw [h4]
  dsimp only
  rw [h6]
  dsimp only
  rw [← h8, this]

/-- **C145 (partial).** With the sentences in another order the same tokens are returned, with the same scores from first to
last, unless the filter sorts by something two tokens share. -/
theorem C145_order_partial [NeZero K] (A A' : ArgSort ℚ) (mth : Method) {m : ℕ} (L : Fin m → List (Fin K))
    (Q : Fin m → List (Fin K → ℚ)) (τ : Equiv.Perm (Fin m)) (hshape : ∀ i, (L i).length = (Q i).length) (args : Args K)
    (hties : NoTies args.filterBy (labelsOf (flatTokens L Q)) (probsOf (flatTokens L Q))) (l : List (ℕ × ℕ))
    (hl : Token.findLabelIssues A A' (methodScorer mth) (List.ofFn L) (List.ofFn Q) args = .ok l) :
    ∃ l', Token.findLabelIssues A A' (methodScorer mth) (List.ofFn (fun i => L (τ i))) (List.ofFn (fun i => Q (τ i))) args =
        .ok l' ∧
      (∀ (i : Fin m) j, ((i : ℕ), j) ∈ l' ↔ ((τ i : ℕ), j) ∈ l) ∧ l'.length = l.length ∧
      ∀ t t', tokenScores (methodScorer mth) (List.ofFn L) (List.ofFn Q) = .ok t →
        tokenScores (methodScorer mth) (List.ofFn (fun i => L (τ i))) (List.ofFn (fun i => Q (τ i))) = .ok t' →
        l'.mapM (get2 t') = l.mapM (get2 t) := by
  obtain ⟨e, h1, h2, h3⟩ := exists_rearrangement L Q τ hshape
  have hsh := shape_ofFn L Q hshape
  have hsh' := shape_ofFn (fun i => L (τ i)) (fun i => Q (τ i)) (fun i => hshape (τ i))
  obtain ⟨hd, hlen⟩ := flattenData_eq _ _ hsh
  obtain ⟨hd', hlen'⟩ := flattenData_eq _ _ hsh'
  have hl0 := hl
  unfold Token.findLabelIssues at hl
  rw [hd] at hl
  dsimp only [bind, Except.bind] at hl
  cases hs : methodScorer mth _ (labelsOf (flatTokens L Q)) (probsOf (flatTokens L Q)) with
  | error err => unfold flatTokens at hs; rw [hs] at hl; cases hl
  | ok s =>
    cases hidx : findRankedChecked A A' (labelsOf (flatTokens L Q)) (probsOf (flatTokens L Q)) args s with
    | error err => unfold flatTokens at hs hidx; rw [hs] at hl; dsimp only at hl; rw [hidx] at hl; cases hl
    | ok idx =>
      have hs' := scores_equiv e mth _ _ s hs
      obtain ⟨idx', hi', hperm, hsc⟩ := ranked_equiv A A' e _ _ args s hties idx hidx
      rw [← funext h1, ← funext h2] at hs' hi'
      have hlk : idx.mapM (fun r => lookup ((List.ofFn L).map List.length) r.val) = .ok l := by
        unfold flatTokens at hs
        rw [hs] at hl
        dsimp only at hl
        unfold flatTokens at hidx
        rw [hidx] at hl
        exact hl
      obtain ⟨l', hl', -⟩ := mapM_exists idx' (fun r => lookup ((List.ofFn (fun i => L (τ i))).map List.length) r.val)
        (fun _ _ => True) (fun r _ => by
          obtain ⟨i, j, row, g, -⟩ := lookup_spec (List.ofFn (fun i => L (τ i))) r.val (lt_of_lt_of_eq r.isLt hlen')
          exact ⟨_, g, trivial⟩)
      have hnd : idx.Nodup := by
        obtain ⟨mask, -, rfl⟩ := findRankedChecked_mask A A' _ _ args s idx hidx
        exact (orderLabelIssues_perm A' mask s).nodup_iff.mpr ((List.nodup_finRange _).filter _)
      have hnd' : idx'.Nodup := (hperm.nodup_iff.mpr hnd).of_map _
      obtain ⟨l1, a1, -, -, hm1, -⟩ := map_lookup _ _ hlen idx hnd
      obtain ⟨l2, a2, -, -, hm2, -⟩ := map_lookup _ _ hlen' idx' hnd'
      obtain rfl := Except.ok.inj (hlk.symm.trans a1)
      obtain rfl := Except.ok.inj (hl'.symm.trans a2)
      refine ⟨l', ?_, ?_, ?_, ?_⟩
      · unfold Token.findLabelIssues
        rw [hd']
        dsimp only [bind, Except.bind]
        unfold methodScorer flatTokens at *
        rw [hs']
        dsimp only
        rw [hi']
        exact hl'
      · intro i j
        rw [hm1, hm2]
        have g : (List.ofFn L)[(τ i : ℕ)]? = some (L (τ i)) := by simp
        have g' : (List.ofFn (fun i => L (τ i)))[(i : ℕ)]? = some (L (τ i)) := by simp
        constructor
        · rintro ⟨r, hr, row, b1, b2, b3⟩
          rw [g'] at b1
          obtain rfl := Option.some.inj b1
          exact ⟨e r, hperm.mem_iff.mp (List.mem_map_of_mem hr), _, g, b2, (h3 r i j b2).mp b3⟩
        · rintro ⟨r, hr, row, b1, b2, b3⟩
          rw [g] at b1
          obtain rfl := Option.some.inj b1
          obtain ⟨r', hr', rfl⟩ := List.mem_map.mp (hperm.mem_iff.mpr hr)
          exact ⟨r', hr', _, g', b2, (h3 r' i j b2).mpr b3⟩
      · have e1 := congrArg List.length (positions_of_lookup _ _ _ hlk)
        have e2 := congrArg List.length (positions_of_lookup _ _ _ hl')
        have e3 := hperm.length_eq
        simp only [List.length_map] at e1 e2 e3
        omega
      · intro t t' ht ht'
        rw [mapM_of_lookup _ _ _ hlk (get2 t) s (fun r p hp => get2_of_tokenScores _ _ _ hsh s hs t ht r p hp),
          mapM_of_lookup _ _ _ hl' (get2 t') _ (fun r p hp => get2_of_tokenScores _ _ _ hsh' _ hs' t' ht' r p hp), hsc]

/-- Three sentences of four tokens with different self-confidence, and the last sentence moved to the front. -/
example :
    Token.findLabelIssues (stableSort ℚ) (stableSort ℚ) (methodScorer .selfConfidence)
      (List.ofFn (![[0, 0], [1], [1]] : Fin 3 → List (Fin 2)))
      (List.ofFn (![[![9/10, 1/10], ![1/5, 4/5]], [![1/20, 19/20]], [![9/10, 1/10]]] : Fin 3 → List (Fin 2 → ℚ)))
      { filterBy := .predictedNeqGiven } = .ok [(2, 0), (0, 1)] ∧
    Token.findLabelIssues (stableSort ℚ) (stableSort ℚ) (methodScorer .selfConfidence)
      (List.ofFn (fun i => (![[0, 0], [1], [1]] : Fin 3 → List (Fin 2)) ((finRotate 3).symm i)))
      (List.ofFn (fun i => (![[![9/10, 1/10], ![1/5, 4/5]], [![1/20, 19/20]], [![9/10, 1/10]]] : Fin 3 → List (Fin 2 → ℚ))
        ((finRotate 3).symm i)))
      { filterBy := .predictedNeqGiven } = .ok [(0, 0), (1, 1)] := by
  constructor <;> exact ok_of_toOption (by decide +kernel)

/-- **C145 fails for ties.** Four sentences of one token each; the first two have the same self-confidence. Exchanging them
does not exchange what is said about them. -/
theorem C145_not_ties (A A' : ArgSort ℚ) : ∃ l l',
    Token.findLabelIssues A A' (methodScorer .selfConfidence) (List.ofFn (fun i => [tieLabels i]))
      (List.ofFn (fun i => [tieProbs i])) { filterBy := .lowSelfConfidence } = .ok l ∧
    Token.findLabelIssues A A' (methodScorer .selfConfidence) (List.ofFn (fun i => [tieLabels (Equiv.swap 0 1 i)]))
      (List.ofFn (fun i => [tieProbs (Equiv.swap 0 1 i)])) { filterBy := .lowSelfConfidence } = .ok l' ∧
    ((((0 : Fin 4) : ℕ), 0) ∈ l' ↔ ((Equiv.swap (0 : Fin 4) 1 0 : ℕ), 0) ∉ l) := by
  obtain ⟨mask, mask', h1, h2, -, h4, -⟩ := C120_not_ties A
  have key : ∀ (L : Fin 4 → Fin 3) (P : Fin 4 → Fin 3 → ℚ) (mask : Fin 4 → Bool), InRange P →
      findChecked A L P { filterBy := .lowSelfConfidence } = .ok mask →
      ∃ l, Token.findLabelIssues A A' (methodScorer .selfConfidence) (List.ofFn (fun i => [L i])) (List.ofFn (fun i => [P i]))
        { filterBy := .lowSelfConfidence } = .ok l ∧ ∀ i : Fin 4, ((i : ℕ), 0) ∈ l ↔ mask i = true := by
    intro L P mask hr hm
    have hsh : (List.ofFn (fun i => [L i])).map List.length = (List.ofFn (fun i => [P i])).map List.length := by
      rw [List.map_ofFn, List.map_ofFn]; rfl
    have hL : labelsOf ((List.ofFn (fun i => [L i])).flatten.zip (List.ofFn (fun i => [P i])).flatten) = L := by
      funext i; fin_cases i <;> rfl
    have hP : probsOf ((List.ofFn (fun i => [L i])).flatten.zip (List.ofFn (fun i => [P i])).flatten) = P := by
      funext i; fin_cases i <;> rfl
    have hv : validate true L P = .ok () := (validate_iff _ _ _).mpr ⟨by norm_num, Or.inl rfl, fun i k => hr i k⟩
    have hs : methodScorer .selfConfidence 4 L P = .ok (selfConfidence L P) := by
      unfold methodScorer scoresChecked
      rw [hv]; rfl
    obtain ⟨l, hl, -, hmem, -⟩ := C31_one_to_one A A' (methodScorer .selfConfidence) (List.ofFn (fun i => [L i]))
      (List.ofFn (fun i => [P i])) { filterBy := .lowSelfConfidence } hsh (selfConfidence L P) (by rw [hL, hP]; exact hs) mask
      (by rw [hL, hP]; exact hm)
    refine ⟨l, hl, fun i => ?_⟩
    rw [hmem]
    have ht : ∀ i : Fin 4, tokensBefore (List.ofFn (fun i => [L i])) i 0 = i := by
      intro i; fin_cases i <;> rfl
    rw [ht]
    constructor
    · rintro ⟨r, hr, row, -, -, h⟩
      have : r = i := Fin.ext h
      rwa [← this]
    · intro h
      exact ⟨i, h, [L i], by rw [List.getElem?_ofFn, dif_pos i.isLt], by simp, rfl⟩
  have hin : InRange tieProbs := by unfold InRange; decide +kernel
  obtain ⟨l, a1, a2⟩ := key tieLabels tieProbs mask hin h1
  obtain ⟨l', b1, b2⟩ := key _ _ mask' (fun i => hin (Equiv.swap 0 1 i)) h2
  refine ⟨l, l', a1, b1, ?_⟩
  rw [b2 0, a2, Equiv.swap_apply_left]
  rw [Equiv.swap_apply_right] at h4
  cases h5 : mask 1 <;> cases h6 : mask' 0 <;> simp [h5, h6] at h4 ⊢

end Cleanlab.Props
