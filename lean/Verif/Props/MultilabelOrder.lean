import Verif.Model.MultilabelDataset
import Verif.Props.AnnotatorOrder
import Verif.Props.ExampleOrder
import Verif.Props.MultilabelDataset
import Verif.Props.MultilabelFilter

/-!
# C125: the order of the examples and of the classes does not matter for multi-label data
-/

namespace Cleanlab.Props

open Np Cleanlab.Util Cleanlab.Count Cleanlab.Rank Cleanlab.Filter Cleanlab.Multilabel

variable {n K : ℕ}

theorem toOption_bind {α β : Type} (x : Except String α) (f : α → Except String β) :
    (x >>= f).toOption = x.toOption.bind (fun a => (f a).toOption) := by
  cases x <;> rfl

/-! ## The order of the classes -/

/-- The arguments when class `τ k` is called `k`. -/
def permuteClasses (τ : Equiv.Perm (Fin K)) (args : MLArgs K) : MLArgs K :=
  { args with
    numToRemove := args.numToRemove.map (fun num k => num (τ k))
    confidentJoint := args.confidentJoint.map (fun cj k => cj (τ k)) }

theorem binary_permute (τ : Equiv.Perm (Fin K)) (args : MLArgs K) (k : Fin K) :
    (permuteClasses τ args).binary k = args.binary (τ k) := by
  unfold permuteClasses MLArgs.binary
  cases args.numToRemove <;> cases args.confidentJoint <;> rfl

/-- **C125.** The issues of each class are found whatever its number. -/
theorem C125_classes_per_class (A : ArgSort ℚ) (τ : Equiv.Perm (Fin K)) (y : Fin n → Fin K → Bool)
    (P : Fin n → Fin K → ℚ) (args : MLArgs K) :
    (issuesPerClass A (fun i k => y i (τ k)) (fun i k => P i (τ k)) (permuteClasses τ args)).toOption =
      (issuesPerClass A y P args).toOption.map (fun per k => per (τ k)) := by
  unfold issuesPerClass
  rw [← collect_comp τ]
  simp only [binary_permute]
  rfl

theorem unionMask_permute (A : ArgSort ℚ) (τ : Equiv.Perm (Fin K)) (y : Fin n → Fin K → Bool)
    (P : Fin n → Fin K → ℚ) (args : MLArgs K) :
    (unionMask A (fun i k => y i (τ k)) (fun i k => P i (τ k)) (permuteClasses τ args)).toOption =
      (unionMask A y P args).toOption := by
  unfold unionMask
  rw [toOption_bind, toOption_bind, C125_classes_per_class]
  cases (issuesPerClass A y P args) with
  | error e => rfl
  | ok per =>
    simp only [Except.toOption, Option.map_some, Option.bind_some, pure, Except.pure, Option.some.injEq]
    funext i
    rw [countP_comp τ (fun k => per k i)]

theorem numErrors_permute (A : ArgSort ℚ) (τ : Equiv.Perm (Fin K)) (y : Fin n → Fin K → Bool)
    (P : Fin n → Fin K → ℚ) (args : MLArgs K) :
    (numErrors A (fun i k => y i (τ k)) (fun i k => P i (τ k)) (permuteClasses τ args)).toOption =
      (numErrors A y P args).toOption := by
  unfold numErrors
  rw [toOption_bind, toOption_bind]
  have := unionMask_permute A τ y P { filterBy := .confidentLearning, confidentJoint := args.confidentJoint }
  rw [← this]
  rfl

variable {F : Type} [Field F] [LinearOrder F]

omit [Field F] in
theorem sortDesc_permute (τ : Equiv.Perm (Fin K)) (s : Fin K → F) : sortDesc (fun k => s (τ k)) = sortDesc s := by
  unfold sortDesc
  have hp : (List.ofFn (fun k => s (τ k))).Perm (List.ofFn s) := by
    simpa [Function.comp_def] using Equiv.Perm.ofFn_comp_perm τ s
  exact (((List.perm_insertionSort _ _).trans hp).trans (List.perm_insertionSort _ _).symm).eq_of_pairwise
    (fun _ _ _ _ h1 h2 => le_antisymm h2 h1) (List.pairwise_insertionSort _ _) (List.pairwise_insertionSort _ _)

theorem ema_permute (alpha : Option F) (τ : Equiv.Perm (Fin K)) (s : Fin K → F) :
    ema alpha (fun k => s (τ k)) = ema alpha s := by
  unfold ema
  rw [sortDesc_permute]

theorem isMultilabel_permute (τ : Equiv.Perm (Fin K)) (y : Fin n → Fin K → Bool) :
    isMultilabel (fun i k => y i (τ k)) = isMultilabel y := by
  unfold isMultilabel
  have h : ∀ b, (∃ i k, y i (τ k) = b) ↔ ∃ i k, y i k = b := fun b =>
    ⟨fun ⟨i, k, h⟩ => ⟨i, τ k, h⟩, fun ⟨i, k, h⟩ => ⟨i, τ.symm k, by simpa using h⟩⟩
  simp only [h]

/-- **C125.** The class scores move with the classes, and the overall score of an example stays, for every scorer of the
single classes. -/
theorem C125_classes_scores (base : (Fin n → Fin 2) → (Fin n → Fin 2 → F) → Except String (Fin n → F))
    (τ : Equiv.Perm (Fin K)) (y : Fin n → Fin K → Bool) (P : Fin n → Fin K → F) :
    (classScores base (fun i k => y i (τ k)) (fun i k => P i (τ k))).toOption =
        (classScores base y P).toOption.map (fun s k => s (τ k)) ∧
      (scorer base (fun i k => y i (τ k)) (fun i k => P i (τ k))).toOption = (scorer base y P).toOption := by
  have hc : (classScores base (fun i k => y i (τ k)) (fun i k => P i (τ k))).toOption =
        (classScores base y P).toOption.map (fun s k => s (τ k)) := by
    unfold classScores
    rw [← collect_comp τ]
    rfl
  refine ⟨hc, ?_⟩
  unfold scorer
  rw [isMultilabel_permute]
  by_cases h : isMultilabel y = true
  · rw [if_pos h, if_pos h, toOption_bind, toOption_bind, hc]
    cases classScores base y P with
    | error e => rfl
    | ok s =>
      simp only [Except.toOption, Option.map_some, Option.bind_some]
      have : (fun i => ema (some (4 / 5)) (fun k => s (τ k) i)) = fun i => ema (some (4 / 5)) (fun k => s k i) := by
        funext i
        exact ema_permute (some (4 / 5)) τ (fun k => s k i)
      rw [this]
  · rw [if_neg h, if_neg h]

theorem lowIndices_permute (A A' : ArgSort ℚ) (τ : Equiv.Perm (Fin K)) (y : Fin n → Fin K → Bool)
    (P : Fin n → Fin K → ℚ) (args : MLArgs K) :
    (lowIndices A A' (fun i k => y i (τ k)) (fun i k => P i (τ k)) (permuteClasses τ args)).toOption =
      (lowIndices A A' y P args).toOption := by
  unfold lowIndices
  simp only [toOption_bind, numErrors_permute, (C125_classes_scores selfConf τ y P).2]

/-- **C125.** The same examples are flagged whatever the numbers of the classes. -/
theorem C125_classes_find (A A' : ArgSort ℚ) (τ : Equiv.Perm (Fin K)) (y : Fin n → Fin K → Bool)
    (P : Fin n → Fin K → ℚ) (args : MLArgs K) :
    (multilabelIssues A A' (fun i k => y i (τ k)) (fun i k => P i (τ k)) (permuteClasses τ args)).toOption =
      (multilabelIssues A A' y P args).toOption := by
  unfold multilabelIssues
  have hl : isLow (permuteClasses τ args) = isLow args := rfl
  rw [hl]
  by_cases h : isLow args = true
  · rw [if_pos h, if_pos h, toOption_bind, toOption_bind, lowIndices_permute]
  · rw [if_neg h, if_neg h, unionMask_permute]

theorem perClassRanked_permute (A A' : ArgSort ℚ)
    (base : (Fin n → Fin 2) → (Fin n → Fin 2 → ℚ) → Except String (Fin n → ℚ)) (τ : Equiv.Perm (Fin K))
    (y : Fin n → Fin K → Bool) (P : Fin n → Fin K → ℚ) (args : MLArgs K) :
    (issuesPerClassRanked A A' base (fun i k => y i (τ k)) (fun i k => P i (τ k)) (permuteClasses τ args)).toOption =
      (issuesPerClassRanked A A' base y P args).toOption.map (fun per k => per (τ k)) := by
  unfold issuesPerClassRanked
  rw [← collect_comp τ]
  simp only [binary_permute]
  rfl

/-- **C125.** The ranked list of issues is the same whatever the numbers of the classes. -/
theorem C125_classes_ranked (A A' : ArgSort ℚ)
    (base : (m : ℕ) → (Fin m → Fin 2) → (Fin m → Fin 2 → ℚ) → Except String (Fin m → ℚ)) (τ : Equiv.Perm (Fin K))
    (y : Fin n → Fin K → Bool) (P : Fin n → Fin K → ℚ) (args : MLArgs K) :
    (multilabelIssuesRanked A A' base (fun i k => y i (τ k)) (fun i k => P i (τ k)) (permuteClasses τ args)).toOption =
      (multilabelIssuesRanked A A' base y P args).toOption := by
  unfold multilabelIssuesRanked
  have hl : isLow (permuteClasses τ args) = isLow args := rfl
  rw [hl]
  by_cases h : isLow args = true
  · rw [if_pos h, if_pos h]
    unfold lowRanked
    rw [toOption_bind, toOption_bind, lowIndices_permute]
    congr 1
    funext idx
    dsimp only
    rw [toOption_bind, toOption_bind]
    rw [(C125_classes_scores (base _) τ _ _).2]
  · rw [if_neg h, if_neg h]
    unfold unionRanked
    rw [toOption_bind, toOption_bind, perClassRanked_permute]
    cases issuesPerClassRanked A A' (base n) y P args with
    | error e => rfl
    | ok lists =>
      have hidx : ∀ i, (∃ k, i ∈ lists (τ k)) ↔ ∃ k, i ∈ lists k := fun i =>
        ⟨fun ⟨k, h⟩ => ⟨τ k, h⟩, fun ⟨k, h⟩ => ⟨τ.symm k, by simpa using h⟩⟩
      have hs := (C125_classes_scores (base n) τ y P).2
      have hf : (List.finRange n).filter (fun i => decide (∃ k, i ∈ lists (τ k))) =
          (List.finRange n).filter (fun i => decide (∃ k, i ∈ lists k)) :=
        List.filter_congr (fun i _ => by simp only [hidx])
      show Option.bind (some fun k => lists (τ k)) _ = Option.bind (some lists) _
      rw [Option.bind_some, Option.bind_some, toOption_bind, toOption_bind, hs, hf]

/-- **C125.** The overall health score is the same whatever the numbers of the classes. -/
theorem C125_classes_health (rnd : ℚ → ℚ) (A A' : ArgSort ℚ) (τ : Equiv.Perm (Fin K)) (y : Fin n → Fin K → Bool)
    (P : Fin n → Fin K → ℚ) (cj : Option (Fin K → Fin 2 → Fin 2 → ℚ)) :
    (MultilabelDataset.overallHealth rnd A A' (fun i k => y i (τ k)) (fun i k => P i (τ k))
        (cj.map (fun cj k => cj (τ k)))).toOption = (MultilabelDataset.overallHealth rnd A A' y P cj).toOption := by
  unfold MultilabelDataset.overallHealth
  rw [toOption_bind, toOption_bind]
  have := C125_classes_find A A' τ y P { filterBy := .pruneByNoiseRate, confidentJoint := cj }
  rw [← this]
  rfl

open Cleanlab.MultilabelDataset in
/-- A row of the issue table with the original name of the class. -/
def renameIssue (τ : Equiv.Perm (Fin K)) (r : IssueRow K) : IssueRow K := { r with cls := τ r.cls }

open Cleanlab.MultilabelDataset in
/-- A row of the class table with the original name of the class. -/
def renameClass (τ : Equiv.Perm (Fin K)) (r : ClassRow K) : ClassRow K := { r with cls := τ r.cls }

open Cleanlab.MultilabelDataset in
theorem issueRows_permute (rnd : ℚ → ℚ) (τ : Equiv.Perm (Fin K)) (y : Fin n → Fin K → Bool)
    (lists : Fin K → List (Fin n)) :
    ((issueRows rnd (fun i k => y i (τ k)) (fun k => lists (τ k))).map (renameIssue τ)).Perm (issueRows rnd y lists) := by
  have h : ((List.finRange K).map τ).Perm (List.finRange K) := by
    refine (List.perm_ext_iff_of_nodup ((List.nodup_finRange K).map τ.injective) (List.nodup_finRange K)).mpr (fun i => ?_)
    exact ⟨fun _ => List.mem_finRange i, fun _ => List.mem_map.mpr ⟨τ.symm i, List.mem_finRange _, by simp⟩⟩
  have h2 := h.flatMap_right (fun k => [issueRow rnd y lists k true, issueRow rnd y lists k false])
  rw [List.flatMap_map] at h2
  unfold issueRows
  rw [List.map_flatMap]
  exact h2

theorem sorted_keys {α β : Type} (A : ArgSort ℚ) (key : α → ℚ) (key' : β → ℚ) (f : β → α) (hf : ∀ b, key (f b) = key' b)
    (l : List α) (l' : List β) (h : (l'.map f).Perm l) :
    ((sortOn A key' l').map f).Perm (sortOn A key l) ∧ (sortOn A key' l').map key' = (sortOn A key l).map key := by
  have hp : ((sortOn A key' l').map f).Perm (sortOn A key l) :=
    (((sortOn_perm A key' l').map f).trans h).trans (sortOn_perm A key l).symm
  refine ⟨hp, ?_⟩
  have hk := hp.map key
  rw [List.map_map] at hk
  have he : key ∘ f = key' := funext hf
  rw [he] at hk
  exact hk.eq_of_pairwise (fun a b _ _ h1 h2 => le_antisymm h1 h2)
    (List.pairwise_map.mpr (sortOn_sorted A key' l')) (List.pairwise_map.mpr (sortOn_sorted A key l))

open Cleanlab.MultilabelDataset in
/-- **C125.** The table of common issues has the same rows whatever the numbers of the classes, with the same
probabilities from first to last. -/
theorem C125_classes_issues (rnd : ℚ → ℚ) (A A' : ArgSort ℚ) (τ : Equiv.Perm (Fin K)) (y : Fin n → Fin K → Bool)
    (P : Fin n → Fin K → ℚ) (cj : Option (Fin K → Fin 2 → Fin 2 → ℚ)) (rows : List (IssueRow K))
    (h : commonIssues rnd A A' y P cj = .ok rows) :
    ∃ rows', commonIssues rnd A A' (fun i k => y i (τ k)) (fun i k => P i (τ k)) (cj.map (fun cj k => cj (τ k))) =
        .ok rows' ∧ (rows'.map (renameIssue τ)).Perm rows ∧ rows'.map (fun r => r.prob) = rows.map (fun r => r.prob) := by
  have hl := perClassRanked_permute A A' selfConf τ y P { filterBy := .pruneByNoiseRate, confidentJoint := cj }
  unfold commonIssues at h ⊢
  cases hr : issuesPerClassRanked A A' selfConf y P { filterBy := .pruneByNoiseRate, confidentJoint := cj } with
  | error e => rw [hr] at h; cases h
  | ok lists =>
    rw [hr] at h hl
    obtain rfl := Except.ok.inj h
    have hl' := ok_of_toOption hl
    have hl'' : issuesPerClassRanked A A' selfConf (fun i k => y i (τ k)) (fun i k => P i (τ k))
        { filterBy := .pruneByNoiseRate, confidentJoint := cj.map (fun cj k => cj (τ k)) } =
          .ok (fun k => lists (τ k)) := hl'
    rw [hl'']
    obtain ⟨h1, h2⟩ := sorted_keys A' (fun r : IssueRow K => -r.prob) (fun r : IssueRow K => -r.prob) (renameIssue τ)
      (fun _ => rfl) _ _ (issueRows_permute rnd τ y lists)
    refine ⟨_, rfl, h1, ?_⟩
    have := congrArg (List.map Neg.neg) h2
    rw [List.map_map, List.map_map] at this
    simpa [Function.comp_def] using this

open Cleanlab.MultilabelDataset in
/-- **C125.** The ranking of the classes has the same rows whatever the numbers of the classes, with the same qualities
from first to last. -/
theorem C125_classes_ranking (rnd : ℚ → ℚ) (A A' : ArgSort ℚ) (τ : Equiv.Perm (Fin K)) (y : Fin n → Fin K → Bool)
    (P : Fin n → Fin K → ℚ) (joint cj : Option (Fin K → Fin 2 → Fin 2 → ℚ)) (rows : List (ClassRow K))
    (h : rankClasses rnd A A' y P joint cj = .ok rows) :
    ∃ rows', rankClasses rnd A A' (fun i k => y i (τ k)) (fun i k => P i (τ k)) (joint.map (fun j k => j (τ k)))
        (cj.map (fun j k => j (τ k))) = .ok rows' ∧
      (rows'.map (renameClass τ)).Perm rows ∧ rows'.map (fun r => r.quality) = rows.map (fun r => r.quality) := by
  have hl := perClassRanked_permute A A' selfConf τ y P { filterBy := .pruneByNoiseRate, confidentJoint := joint }
  unfold rankClasses commonIssues at h ⊢
  cases hr : issuesPerClassRanked A A' selfConf y P { filterBy := .pruneByNoiseRate, confidentJoint := joint } with
  | error e => rw [hr] at h; cases h
  | ok lists =>
    rw [hr] at h hl
    obtain rfl := Except.ok.inj h
    have hl' : issuesPerClassRanked A A' selfConf (fun i k => y i (τ k)) (fun i k => P i (τ k))
        { filterBy := .pruneByNoiseRate, confidentJoint := joint.map (fun cj k => cj (τ k)) } =
          .ok (fun k => lists (τ k)) := ok_of_toOption hl
    rw [hl']
    have hp := classRows_perm rnd y lists (sortOn A' (fun r => -r.prob) (issueRows rnd y lists)) (sortOn_perm _ _ _)
    have hp' := classRows_perm rnd (fun i k => y i (τ k)) (fun k => lists (τ k))
      (sortOn A' (fun r => -r.prob) (issueRows rnd (fun i k => y i (τ k)) (fun k => lists (τ k)))) (sortOn_perm _ _ _)
    have hτ : ((List.finRange K).map τ).Perm (List.finRange K) := by
      refine (List.perm_ext_iff_of_nodup ((List.nodup_finRange K).map τ.injective) (List.nodup_finRange K)).mpr
        (fun i => ?_)
      exact ⟨fun _ => List.mem_finRange i, fun _ => List.mem_map.mpr ⟨τ.symm i, List.mem_finRange _, by simp⟩⟩
    have hm := hτ.map (fun k => classRow rnd n (issueRow rnd y lists k true) (issueRow rnd y lists k false))
    rw [List.map_map] at hm
    have hall := hp'.map (renameClass τ)
    rw [List.map_map] at hall
    obtain ⟨h1, h2⟩ := sorted_keys A' (fun r : ClassRow K => r.quality) (fun r : ClassRow K => r.quality) (renameClass τ)
      (fun _ => rfl) _ _ ((hall.trans hm).trans hp.symm)
    exact ⟨_, rfl, h1, h2⟩

/-! ## The order of the examples -/

theorem findChecked_comp {J : ℕ} [NeZero J] (A : ArgSort ℚ) (σ : Equiv.Perm (Fin n)) (labels : Fin n → Fin J)
    (P : Fin n → Fin J → ℚ) (args : Args J) (h : NoTies args.filterBy labels P) :
    (findChecked A (fun i => labels (σ i)) (fun i => P (σ i)) args).toOption =
      (findChecked A labels P args).toOption.map (fun mask i => mask (σ i)) := by
  cases hf : findChecked A labels P args with
  | ok mask => rw [(C120_find_partial A σ labels P args h mask).mpr hf]; rfl
  | error e =>
    cases hf' : findChecked A (fun i => labels (σ i)) (fun i => P (σ i)) args with
    | error e' => rfl
    | ok mask' =>
      have : (fun i => mask' (σ.symm (σ i))) = mask' := by funext i; simp
      rw [← this] at hf'
      have := (C120_find_partial A σ labels P args h (fun i => mask' (σ.symm i))).mp hf'
      rw [hf] at this
      cases this

theorem collect_after {β γ : Type} {J : ℕ} (f : Fin J → Except String β) (g : Fin J → Except String γ) (t : β → γ)
    (h : ∀ j, (g j).toOption = (f j).toOption.map t) :
    (collect g).toOption = (collect f).toOption.map (fun v j => t (v j)) := by
  cases hf : collect f with
  | ok v =>
    have hv := (collect_ok_iff _ _).mp hf
    rw [(collect_ok_iff g (fun j => t (v j))).mpr (fun j => ok_of_toOption (by rw [h, hv]; rfl))]
    rfl
  | error e =>
    cases hg : collect g with
    | error e' => rfl
    | ok v =>
      have hv := (collect_ok_iff _ _).mp hg
      have hex : ∀ j, ∃ b, f j = .ok b := by
        intro j
        have hj := h j
        rw [hv] at hj
        cases hfj : f j with
        | ok b => exact ⟨b, rfl⟩
        | error e => rw [hfj] at hj; cases hj
      choose w hw using hex
      rw [(collect_ok_iff f w).mpr hw] at hf
      cases hf

/-- **C125 (partial).** Without ties the issues of every class are the same whatever the order of the examples. -/
theorem C125_examples_per_class_partial (A : ArgSort ℚ) (σ : Equiv.Perm (Fin n)) (y : Fin n → Fin K → Bool)
    (P : Fin n → Fin K → ℚ) (args : MLArgs K)
    (h : ∀ k, NoTies args.filterBy (binaryLabels y k) (stackComplement P k)) :
    (issuesPerClass A (fun i => y (σ i)) (fun i => P (σ i)) args).toOption =
      (issuesPerClass A y P args).toOption.map (fun per k i => per k (σ i)) := by
  have hk : ∀ k, (findChecked A (binaryLabels (fun i => y (σ i)) k) (stackComplement (fun i => P (σ i)) k)
      (args.binary k)).toOption = (findChecked A (binaryLabels y k) (stackComplement P k) (args.binary k)).toOption.map
        (fun mask i => mask (σ i)) := fun k => findChecked_comp A σ (binaryLabels y k) (stackComplement P k) _ (h k)
  unfold issuesPerClass
  exact collect_after _ _ (fun (mask : Fin n → Bool) i => mask (σ i)) hk

theorem unionMask_comp (A : ArgSort ℚ) (σ : Equiv.Perm (Fin n)) (y : Fin n → Fin K → Bool)
    (P : Fin n → Fin K → ℚ) (args : MLArgs K)
    (h : ∀ k, NoTies args.filterBy (binaryLabels y k) (stackComplement P k)) :
    (unionMask A (fun i => y (σ i)) (fun i => P (σ i)) args).toOption =
      (unionMask A y P args).toOption.map (fun mask i => mask (σ i)) := by
  unfold unionMask
  rw [toOption_bind, toOption_bind, C125_examples_per_class_partial A σ y P args h]
  cases issuesPerClass A y P args <;> rfl

/-- **C125.** The number of issues that the filters by score look for does not depend on the order of the examples. -/
theorem C125_examples_number (A : ArgSort ℚ) (σ : Equiv.Perm (Fin n)) (y : Fin n → Fin K → Bool)
    (P : Fin n → Fin K → ℚ) (args : MLArgs K) :
    (numErrors A (fun i => y (σ i)) (fun i => P (σ i)) args).toOption = (numErrors A y P args).toOption := by
  unfold numErrors
  rw [toOption_bind, toOption_bind, unionMask_comp A σ y P
    { filterBy := .confidentLearning, confidentJoint := args.confidentJoint } (fun k => trivial)]
  cases unionMask A y P { filterBy := .confidentLearning, confidentJoint := args.confidentJoint } with
  | error e => rfl
  | ok mask =>
    show some _ = some _
    rw [countP_comp σ mask]

theorem isMultilabel_comp (σ : Equiv.Perm (Fin n)) (y : Fin n → Fin K → Bool) :
    isMultilabel (fun i => y (σ i)) = isMultilabel y := by
  unfold isMultilabel
  have h : ∀ b, (∃ i k, y (σ i) k = b) ↔ ∃ i k, y i k = b := fun b =>
    ⟨fun ⟨i, k, h⟩ => ⟨σ i, k, h⟩, fun ⟨i, k, h⟩ => ⟨σ.symm i, k, by simpa using h⟩⟩
  simp only [h]

/-- **C125.** The class scores and the overall scores move with the examples, for every scorer of the single classes
that does not depend on their order. -/
theorem C125_examples_scores (base : (Fin n → Fin 2) → (Fin n → Fin 2 → F) → Except String (Fin n → F))
    (σ : Equiv.Perm (Fin n))
    (hbase : ∀ l Q, (base (fun i => l (σ i)) (fun i => Q (σ i))).toOption = (base l Q).toOption.map (fun s i => s (σ i)))
    (y : Fin n → Fin K → Bool) (P : Fin n → Fin K → F) :
    (classScores base (fun i => y (σ i)) (fun i => P (σ i))).toOption =
        (classScores base y P).toOption.map (fun s k i => s k (σ i)) ∧
      (scorer base (fun i => y (σ i)) (fun i => P (σ i))).toOption =
        (scorer base y P).toOption.map (fun s i => s (σ i)) := by
  have hc : (classScores base (fun i => y (σ i)) (fun i => P (σ i))).toOption =
        (classScores base y P).toOption.map (fun s k i => s k (σ i)) := by
    unfold classScores
    exact collect_after (fun k => base (binaryLabels y k) (stackComplement P k)) _ (fun (s : Fin n → F) i => s (σ i))
      (fun k => hbase (binaryLabels y k) (stackComplement P k))
  refine ⟨hc, ?_⟩
  unfold scorer
  rw [isMultilabel_comp]
  by_cases h : isMultilabel y = true
  · rw [if_pos h, if_pos h, toOption_bind, toOption_bind, hc]
    cases classScores base y P with
    | error e => rfl
    | ok s => exact collect_comp σ (fun i => ema (some (4 / 5)) (fun k => s k i))
  · rw [if_neg h, if_neg h]
    rfl

theorem selfConf_comp (σ : Equiv.Perm (Fin n)) (l : Fin n → Fin 2) (Q : Fin n → Fin 2 → F) :
    (selfConf (fun i => l (σ i)) (fun i => Q (σ i))).toOption = (selfConf l Q).toOption.map (fun s i => s (σ i)) := rfl

/-- What the multi-label filter sorts by is different for different examples. -/
def MultilabelNoTies (y : Fin n → Fin K → Bool) (P : Fin n → Fin K → ℚ) (args : MLArgs K) : Prop :=
  if isLow args then ∀ s, scorer selfConf y P = .ok s → Function.Injective s
  else ∀ k, NoTies args.filterBy (binaryLabels y k) (stackComplement P k)

/-- **C125 (partial).** Without ties the same examples are flagged whatever their order. -/
theorem C125_examples_find_partial (A A' : ArgSort ℚ) (σ : Equiv.Perm (Fin n)) (y : Fin n → Fin K → Bool)
    (P : Fin n → Fin K → ℚ) (args : MLArgs K) (h : MultilabelNoTies y P args) :
    (multilabelIssues A A' (fun i => y (σ i)) (fun i => P (σ i)) args).toOption =
      (multilabelIssues A A' y P args).toOption.map (fun mask i => mask (σ i)) := by
  unfold multilabelIssues
  unfold MultilabelNoTies at h
  by_cases hl : isLow args = true
  · rw [if_pos hl] at h
    rw [if_pos hl, if_pos hl]
    unfold lowIndices
    rw [toOption_bind, toOption_bind, toOption_bind, toOption_bind, C125_examples_number]
    cases numErrors A y P args with
    | error e => rfl
    | ok num =>
      have hs := (C125_examples_scores selfConf σ (selfConf_comp σ) y P).2
      show Option.bind (Except.toOption (_ >>= _)) _ = Option.map _ (Option.bind (Except.toOption (_ >>= _)) _)
      rw [toOption_bind, toOption_bind, hs]
      cases hsc : scorer selfConf y P with
      | error e => rfl
      | ok s =>
        have hinj := h s hsc
        show some _ = some _
        congr 1
        funext i
        rw [decide_eq_decide, mem_take_indices_iff A' s _ (σ i) (fun t ht e => ht (hinj e)),
          mem_take_indices_iff A' (fun i => s (σ i)) _ i (fun t ht e => ht (σ.injective (hinj e))),
          card_comp σ (fun t => s t < s (σ i))]
  · rw [if_neg hl] at h
    rw [if_neg hl, if_neg hl]
    exact unionMask_comp A σ y P args h

/-- **C125 (partial).** Without ties the overall health score does not depend on the order of the examples. -/
theorem C125_examples_health_partial (rnd : ℚ → ℚ) (A A' : ArgSort ℚ) (σ : Equiv.Perm (Fin n))
    (y : Fin n → Fin K → Bool) (P : Fin n → Fin K → ℚ) (cj : Option (Fin K → Fin 2 → Fin 2 → ℚ))
    (h : ∀ k, MarginsDiffer (binaryLabels y k) (stackComplement P k)) :
    (MultilabelDataset.overallHealth rnd A A' (fun i => y (σ i)) (fun i => P (σ i)) cj).toOption =
      (MultilabelDataset.overallHealth rnd A A' y P cj).toOption := by
  unfold MultilabelDataset.overallHealth
  rw [toOption_bind, toOption_bind, C125_examples_find_partial A A' σ y P _ (by
    unfold MultilabelNoTies; rw [if_neg (by simp [isLow])]; exact h)]
  cases multilabelIssues A A' y P { filterBy := .pruneByNoiseRate, confidentJoint := cj } with
  | error e => rfl
  | ok mask =>
    show some _ = some _
    rw [card_comp σ (fun i => mask i = true)]

/-- The lists of a class have the examples of its mask. -/
theorem rankedLists (A A' : ArgSort ℚ) (y : Fin n → Fin K → Bool) (P : Fin n → Fin K → ℚ) (args : MLArgs K) :
    (issuesPerClassRanked A A' selfConf y P args).toOption = (issuesPerClass A y P args).toOption.map
      (fun per k => orderLabelIssues A' (per k) (fun i => stackComplement P k i (binaryLabels y k i))) := by
  unfold issuesPerClassRanked issuesPerClass
  have hs : ∀ k, selfConf (binaryLabels y k) (stackComplement P k) =
      .ok (fun i => stackComplement P k i (binaryLabels y k i)) := fun k => rfl
  cases hc : collect (fun k => findChecked A (binaryLabels y k) (stackComplement P k) (args.binary k)) with
  | ok per =>
    have hper := (collect_ok_iff _ _).mp hc
    rw [(collect_ok_iff (fun k => do
      let s ← selfConf (binaryLabels y k) (stackComplement P k)
      findRankedChecked A A' (binaryLabels y k) (stackComplement P k) (args.binary k) s)
      (fun k => orderLabelIssues A' (per k) (fun i => stackComplement P k i (binaryLabels y k i)))).mpr (fun k => by
        rw [hs]
        exact findRankedChecked_ok A A' _ _ _ _ _ (hper k))]
    rfl
  | error e =>
    cases hr : collect (fun k => do
      let s ← selfConf (binaryLabels y k) (stackComplement P k)
      findRankedChecked A A' (binaryLabels y k) (stackComplement P k) (args.binary k) s) with
    | error e' => rfl
    | ok l =>
      have hl := (collect_ok_iff _ _).mp hr
      have hex : ∀ k, ∃ m, findChecked A (binaryLabels y k) (stackComplement P k) (args.binary k) = .ok m := by
        intro k
        have hk := hl k
        rw [hs] at hk
        obtain ⟨m, hm, _⟩ := findRankedChecked_mask A A' _ _ _ _ _ hk
        exact ⟨m, hm⟩
      choose w hw using hex
      rw [(collect_ok_iff _ w).mpr hw] at hc
      cases hc

open Cleanlab.MultilabelDataset in
/-- **C125 (partial).** Without ties the table of common issues and the ranking of the classes do not depend on the order
of the examples. -/
theorem C125_examples_tables_partial (rnd : ℚ → ℚ) (A A' : ArgSort ℚ) (σ : Equiv.Perm (Fin n))
    (y : Fin n → Fin K → Bool) (P : Fin n → Fin K → ℚ) (cj cj' : Option (Fin K → Fin 2 → Fin 2 → ℚ))
    (h : ∀ k, MarginsDiffer (binaryLabels y k) (stackComplement P k)) :
    (commonIssues rnd A A' (fun i => y (σ i)) (fun i => P (σ i)) cj).toOption = (commonIssues rnd A A' y P cj).toOption ∧
      (rankClasses rnd A A' (fun i => y (σ i)) (fun i => P (σ i)) cj cj').toOption =
        (rankClasses rnd A A' y P cj cj').toOption := by
  have hc : (commonIssues rnd A A' (fun i => y (σ i)) (fun i => P (σ i)) cj).toOption =
      (commonIssues rnd A A' y P cj).toOption := by
    unfold commonIssues
    rw [toOption_bind, toOption_bind, rankedLists, rankedLists, C125_examples_per_class_partial A σ y P
      { filterBy := .pruneByNoiseRate, confidentJoint := cj } h]
    cases issuesPerClass A y P { filterBy := .pruneByNoiseRate, confidentJoint := cj } with
    | error e => rfl
    | ok per =>
      show some (sortOn A' _ _) = some (sortOn A' _ _)
      congr 2
      have hcount : ∀ k g, issueCount (fun i => y (σ i)) k (orderLabelIssues A' (fun i => per k (σ i)) (fun i =>
          stackComplement (fun i => P (σ i)) k i (binaryLabels (fun i => y (σ i)) k i))) g =
          issueCount y k (orderLabelIssues A' (per k) (fun i => stackComplement P k i (binaryLabels y k i))) g := by
        intro k g
        unfold issueCount
        have hm : ∀ (mask : Fin n → Bool) (s : Fin n → ℚ) i, i ∈ orderLabelIssues A' mask s ↔ mask i = true := by
          intro mask s i
          rw [(orderLabelIssues_perm A' mask s).mem_iff]
          simp
        simp only [hm]
        exact card_comp σ (fun i => y i k = g ∧ per k i = true)
      unfold issueRows issueRow
      simp only [hcount]
  refine ⟨hc, ?_⟩
  unfold rankClasses
  rw [toOption_bind, toOption_bind, hc]

/-! ## Ties -/

/-- Four examples of two classes; the first two are equal and lack class 0. -/
def twinY : Fin 4 → Fin 2 → Bool := ![![false, false], ![false, false], ![false, true], ![true, false]]

/-- Their predicted probabilities. -/
def twinP : Fin 4 → Fin 2 → ℚ := ![![9 / 10, 0], ![9 / 10, 0], ![0, 1 / 20], ![9 / 10, 0]]

theorem twin_cl (A : ArgSort ℚ) : unionMask A twinY twinP { filterBy := .confidentLearning } =
    .ok ![true, true, false, false] := by
  have hne : ∀ k, ∃ i j, binaryLabels twinY k i ≠ binaryLabels twinY k j := by decide
  have hin : ∀ k, InRange (stackComplement twinP k) := by unfold InRange; decide +kernel
  obtain ⟨m, hm, hi⟩ := unionMask_iff A twinY twinP { filterBy := .confidentLearning }
    ![![true, true, false, false], ![false, false, false, false]] (fun k => by
      rw [(C115_accepts_partial A _ _ (hne k) (hin k)).1]
      unfold findLabelIssues rawMask
      refine ok_of_toOption ?_
      show some _ = some _
      revert k
      decide +kernel)
  rw [hm]
  congr 1
  funext i
  rw [Bool.eq_iff_iff, hi]
  revert i
  decide

theorem twin_scores : scorer selfConf twinY twinP = .ok ![7 / 25, 7 / 25, 6 / 25, 23 / 25] := by
  unfold scorer
  rw [if_pos (by decide +kernel), classScores_selfConf]
  refine (collect_ok_iff _ _).mpr (fun i => ok_of_toOption ?_)
  revert i
  decide +kernel

/-- **C125 fails for ties.** The first two examples are equal in labels and probabilities, so exchanging them gives the same
data, but `low_self_confidence` flags just one of them, whichever sort is used. -/
theorem C125_not_ties (A A' : ArgSort ℚ) :
    twinY 0 = twinY 1 ∧ twinP 0 = twinP 1 ∧
      ∃ mask, multilabelIssues A A' twinY twinP { filterBy := .lowSelfConfidence } = .ok mask ∧ mask 0 ≠ mask 1 := by
  refine ⟨rfl, rfl, ?_⟩
  set s : Fin 4 → ℚ := ![7 / 25, 7 / 25, 6 / 25, 23 / 25] with hs
  have hrun : multilabelIssues A A' twinY twinP { filterBy := .lowSelfConfidence } =
      .ok (fun i => decide (i ∈ (A'.indices s).take 2)) := by
    unfold multilabelIssues
    rw [if_pos (by decide)]
    unfold lowIndices numErrors
    rw [twin_cl, twin_scores]
    rfl
  refine ⟨_, hrun, ?_⟩
  have h2 : (2 : Fin 4) ∈ (A'.indices s).take 2 :=
    (mem_take_indices_iff A' s 2 2 (by rw [hs]; decide +kernel)).mpr (by rw [hs]; decide +kernel)
  have h3 : (3 : Fin 4) ∉ (A'.indices s).take 2 := fun h => by
    have := (mem_take_indices_iff A' s 2 3 (by rw [hs]; decide +kernel)).mp h
    revert this
    rw [hs]
    decide +kernel
  have hcard := card_take_indices A' s 2
  intro he
  have he' : ((0 : Fin 4) ∈ (A'.indices s).take 2) ↔ ((1 : Fin 4) ∈ (A'.indices s).take 2) := by
    simpa using he
  rw [Finset.card_filter, Fin.sum_univ_four] at hcard
  rw [if_pos h2, if_neg h3] at hcard
  by_cases h0 : (0 : Fin 4) ∈ (A'.indices s).take 2
  · rw [if_pos h0, if_pos (he'.mp h0)] at hcard; omega
  · rw [if_neg h0, if_neg (fun h => h0 (he'.mpr h))] at hcard; omega

/-- Data without ties. -/
example : MultilabelNoTies (![![true, false], ![false, true], ![true, true]] : Fin 3 → Fin 2 → Bool)
    ![![9 / 10, 1 / 5], ![2 / 5, 3 / 10], ![1 / 2, 4 / 5]] { filterBy := .pruneByNoiseRate } := by
  unfold MultilabelNoTies
  rw [if_neg (by decide)]
  unfold NoTies MarginsDiffer
  decide +kernel

end Cleanlab.Props
