import Verif.Model.CleanLearningArgs
import Verif.Props.CleanLearning

/-!
# C116: calls of `CleanLearning` leave the objects of the caller alone
-/

namespace Cleanlab.Props

open Np Cleanlab.Count Cleanlab.Latent Cleanlab.Filter Cleanlab.CleanLearning

variable {K : ℕ}

/-! ## Arrays -/

/-- No array that existed in `s` has changed in `s'`. -/
def Keeps (s s' : HState K) : Prop := s.next ≤ s'.next ∧ ∀ r < s.next, s'.heap r = s.heap r

theorem Keeps.refl (s : HState K) : Keeps s s := ⟨le_refl _, fun _ _ => rfl⟩

theorem Keeps.trans {s t u : HState K} (h : Keeps s t) (h' : Keeps t u) : Keeps s u :=
  ⟨h.1.trans h'.1, fun r hr => (h'.2 r (hr.trans_le h.1)).trans (h.2 r hr)⟩

theorem keeps_alloc (s : HState K) (m : Mat K) : Keeps s (s.alloc m).1 :=
  ⟨Nat.le_succ _, fun r hr => by simp [HState.alloc, Function.update_of_ne (Nat.ne_of_lt hr)]⟩

/-- All references are to existing arrays. -/
def WF (s : HState K) (a : HCall K) : Prop :=
  (∀ r ∈ s.kwJoint, r < s.next) ∧ (∀ r ∈ s.confidentJoint, r < s.next) ∧ (∀ r ∈ s.noiseMatrix, r < s.next) ∧
    (∀ r ∈ s.inverseNoiseMatrix, r < s.next) ∧ (∀ r ∈ a.noise, r < s.next) ∧ ∀ r ∈ a.inverse, r < s.next

theorem processKwargsH_keeps (s : HState K) : Keeps s (processKwargsH s).1 := by
  unfold processKwargsH
  cases s.kwargs with
  | none => exact Keeps.refl s
  | some kw =>
    dsimp only
    by_cases hu : kw.unsupported = true
    · rw [if_pos hu]; exact Keeps.refl s
    · rw [if_neg hu]; exact ⟨le_refl _, fun _ _ => rfl⟩

theorem latentFromJointH_keeps (s : HState K) (a : HCall K) : Keeps s (latentFromJointH s a).1 := by
  unfold latentFromJointH
  cases s.confidentJoint with
  | none => exact Keeps.refl s
  | some r =>
    dsimp only
    cases estimateLatent (s.heap r) a.call.labels .cnt false with
    | error e => exact Keeps.refl s
    | ok v => exact keeps_alloc s v.2.1

theorem useMatricesH_keeps (cfg : Settings K) (s : HState K) (a : HCall K) (noise : Option ℕ) :
    Keeps s (useMatricesH cfg s a noise).1 := by
  unfold useMatricesH
  cases noise with
  | none =>
    cases a.inverse with
    | none => exact Keeps.refl s
    | some i =>
      dsimp only
      cases a.call.ps with
      | error e => exact ⟨le_refl _, fun _ _ => rfl⟩
      | ok ps => exact keeps_alloc s _
  | some r =>
    cases a.inverse with
    | some i => exact ⟨le_refl _, fun _ _ => rfl⟩
    | none =>
      dsimp only
      cases a.call.ps.bind (fun ps => cfg.pyInv ps (s.heap r)) with
      | error e => exact ⟨le_refl _, fun _ _ => rfl⟩
      | ok v => exact keeps_alloc s v.2

theorem estimateNoiseH_keeps [NeZero K] (cfg : Settings K) (s : HState K) (a : HCall K) (noise : Option ℕ) :
    Keeps s (estimateNoiseH cfg s a noise).1 := by
  unfold estimateNoiseH
  by_cases hn : noise.isNone = true ∧ a.inverse.isNone = true
  · simp only [if_pos hn]
    cases estimateLatent (a.call.joint cfg.sort) a.call.labels .cnt cfg.converge with
    | error e => exact Keeps.refl s
    | ok v =>
      exact ((keeps_alloc s v.2.1).trans (keeps_alloc (s.alloc v.2.1).1 v.2.2)).trans (keeps_alloc _ _)
  · simp only [if_neg hn]
    cases s.confidentJoint with
    | some r => exact Keeps.refl s
    | none => exact keeps_alloc s _

theorem addJointH_heap (s : HState K) (kw : Kwargs K) : (addJointH s kw).heap = s.heap ∧ (addJointH s kw).next = s.next := by
  unfold addJointH
  by_cases h : s.kwJoint.isNone = true ∧ kw.filterBy ≠ some .confidentLearning
  · rw [if_pos h]; exact ⟨rfl, rfl⟩
  · rw [if_neg h]; exact ⟨rfl, rfl⟩

theorem write_heap (s : HState K) (o : Option ℕ) (f : Mat K → Mat K) (r : ℕ) (h : r ∉ o) :
    (s.write o f).heap r = s.heap r := by
  cases o with
  | none => rfl
  | some r' =>
    have : r ≠ r' := fun e => h (by rw [e]; rfl)
    simp [HState.write, Function.update_of_ne this]

theorem write_next (s : HState K) (o : Option ℕ) (f : Mat K → Mat K) : (s.write o f).next = s.next := by
  cases o <;> rfl

theorem write_fields (s : HState K) (o : Option ℕ) (f : Mat K → Mat K) :
    (s.write o f).kwargs = s.kwargs ∧ (s.write o f).kwJoint = s.kwJoint ∧
      (s.write o f).confidentJoint = s.confidentJoint ∧ (s.write o f).noiseMatrix = s.noiseMatrix ∧
      (s.write o f).inverseNoiseMatrix = s.inverseNoiseMatrix ∧ (s.write o f).py = s.py ∧
      (s.write o f).labelIssuesMask = s.labelIssuesMask ∧ (s.write o f).sampleWeight = s.sampleWeight := by
  cases o <;> exact ⟨rfl, rfl, rfl, rfl, rfl, rfl, rfl, rfl⟩

/-- The writes of `pulearning` go to the arrays of three attributes. -/
theorem puLearningH_heap (cfg : Settings K) (s : HState K) :
    (puLearningH cfg s).next = s.next ∧
      ∀ r, r ∉ s.noiseMatrix → r ∉ s.inverseNoiseMatrix → r ∉ s.confidentJoint → (puLearningH cfg s).heap r = s.heap r := by
  unfold puLearningH
  cases cfg.pulearning with
  | none => exact ⟨rfl, fun _ _ _ _ => rfl⟩
  | some p =>
    dsimp only
    by_cases h : K = 2
    · rw [dif_pos h]
      refine ⟨by rw [write_next, write_next, write_next], fun r h1 h2 h3 => ?_⟩
      rw [write_heap, write_heap, write_heap _ _ _ _ h1]
      · rw [(write_fields _ _ _).2.2.2.2.1]; exact h2
      · rw [(write_fields _ _ _).2.2.1, (write_fields _ _ _).2.2.1]; exact h3
    · rw [dif_neg h]; exact ⟨rfl, fun _ _ _ _ => rfl⟩

/-- Without `pulearning`, or with more than two classes, nothing is written. -/
theorem puLearningH_off {cfg : Settings K} (h : cfg.pulearning = none ∨ K ≠ 2) (s : HState K) : puLearningH cfg s = s := by
  unfold puLearningH
  rcases h with h | h
  · rw [h]
  · cases cfg.pulearning with
    | none => rfl
    | some p => exact dif_neg h

theorem findMaskH_keeps [NeZero K] {cfg : Settings K} (h : cfg.pulearning = none ∨ K ≠ 2) (s : HState K) (a : HCall K) :
    Keeps s (findMaskH cfg s a).1 := by
  unfold findMaskH
  have k1 := processKwargsH_keeps s
  rcases h1 : processKwargsH s with ⟨s1, r1⟩
  rw [h1] at k1
  rcases r1 with e | kw
  · exact k1
  dsimp only
  have k2 := latentFromJointH_keeps s1 a
  rcases h2 : latentFromJointH s1 a with ⟨s2, r2⟩
  rw [h2] at k2
  rcases r2 with e | noise
  · exact k1.trans k2
  dsimp only
  have k3 := useMatricesH_keeps cfg s2 a noise
  rcases h3 : useMatricesH cfg s2 a noise with ⟨s3, r3⟩
  rw [h3] at k3
  rcases r3 with e | u
  · exact (k1.trans k2).trans k3
  dsimp only
  have k4 := estimateNoiseH_keeps cfg s3 a noise
  rcases h4 : estimateNoiseH cfg s3 a noise with ⟨s4, r4⟩
  rw [h4] at k4
  rcases r4 with e | u
  · exact ((k1.trans k2).trans k3).trans k4
  dsimp only
  refine ((k1.trans k2).trans k3).trans (k4.trans ?_)
  rw [puLearningH_off h]
  obtain ⟨e1, e2⟩ := addJointH_heap s4 kw
  exact ⟨e2.ge, fun r _ => by rw [e1]⟩

/-- **C116**: without `pulearning`, or with a number of classes other than two, `find_label_issues` changes no array
that exists when it is called: neither the noise matrices given to it, nor the confident joint given to the
constructor, nor any other. It may raise or not. -/
theorem C116_arrays_partial [NeZero K] {cfg : Settings K} (h : cfg.pulearning = none ∨ K ≠ 2) (s : HState K) (a : HCall K)
    (r : ℕ) (hr : r < s.next) : (findLabelIssuesH cfg s a).1.heap r = s.heap r := by
  unfold findLabelIssuesH
  cases checkCall cfg (a.view s.heap) with
  | error e => rfl
  | ok u =>
    dsimp only
    have hk : Keeps s (if cfg.lowMemory = true then (s, cfg.batched a.call.labels a.call.probs) else findMaskH cfg s a).1 := by
      by_cases hl : cfg.lowMemory = true
      · rw [if_pos hl]; exact Keeps.refl s
      · rw [if_neg hl]; exact findMaskH_keeps h s a
    rcases hm : (if cfg.lowMemory = true then (s, cfg.batched a.call.labels a.call.probs) else findMaskH cfg s a) with ⟨s', mask⟩
    rw [hm] at hk
    dsimp only
    cases mask.bind (issueTable cfg s'.view a.call) with
    | error e => exact hk.2 r hr
    | ok df =>
      dsimp only
      by_cases hs : a.call.saveSpace = true
      · rw [if_pos hs]; exact hk.2 r hr
      · rw [if_neg hs]; exact hk.2 r hr

/-- The noise matrix of a caller with two classes survives a call of an object without `pulearning`. -/
example : (findLabelIssuesH cfg2 { heap := fun _ _ _ => 1 / 2, next := 1, kwargs := some kw1 }
    { call := cleanCall, noise := some 0 }).1.heap 0 1 0 = 1 / 2 := by
  rw [C116_arrays_partial (Or.inl rfl) _ _ 0 Nat.one_pos]

/-! ### Which arrays `pulearning` writes to -/

theorem processKwargsH_ok {s s1 : HState K} {kw : Kwargs K} (h : processKwargsH s = (s1, .ok kw)) :
    s1 = { s with
      confidentJoint := s.kwJoint.or s.confidentJoint
      kwargs := some kw } := by
  unfold processKwargsH at h
  cases hk : s.kwargs with
  | none => rw [hk] at h; cases (Prod.mk.inj h).2
  | some kw0 =>
    rw [hk] at h
    dsimp only at h
    by_cases hu : kw0.unsupported = true
    · rw [if_pos hu] at h; cases (Prod.mk.inj h).2
    · rw [if_neg hu] at h
      obtain ⟨h1, h2⟩ := Prod.mk.inj h
      rw [← h1, Except.ok.inj h2]
      cases s.kwJoint <;> rfl

/-- The noise matrix used is the one given, or a new array if there is a joint. -/
theorem latentFromJointH_ok {s s' : HState K} {a : HCall K} {noise : Option ℕ}
    (h : latentFromJointH s a = (s', .ok noise)) :
    s'.kwargs = s.kwargs ∧ s'.kwJoint = s.kwJoint ∧ s'.confidentJoint = s.confidentJoint ∧
      (s.confidentJoint = none ∧ noise = a.noise ∧ s' = s ∨
        s.confidentJoint ≠ none ∧ noise = some s.next ∧ s'.next = s.next + 1) := by
  unfold latentFromJointH at h
  cases hc : s.confidentJoint with
  | none =>
    rw [hc] at h
    obtain ⟨rfl, h2⟩ := Prod.mk.inj h
    exact ⟨rfl, rfl, hc, Or.inl ⟨rfl, (Except.ok.inj h2).symm, rfl⟩⟩
  | some r =>
    rw [hc] at h
    dsimp only at h
    cases he : estimateLatent (s.heap r) a.call.labels .cnt false with
    | error e => rw [he] at h; cases (Prod.mk.inj h).2
    | ok v =>
      rw [he] at h
      obtain ⟨rfl, h2⟩ := Prod.mk.inj h
      exact ⟨rfl, rfl, hc, Or.inr ⟨by simp, (Except.ok.inj h2).symm, rfl⟩⟩

/-- The matrices stored are those given, or new arrays. -/
theorem useMatricesH_ok {cfg : Settings K} {s s' : HState K} {a : HCall K} {noise : Option ℕ}
    (h : useMatricesH cfg s a noise = (s', .ok ())) :
    s'.kwargs = s.kwargs ∧ s'.kwJoint = s.kwJoint ∧ s'.confidentJoint = s.confidentJoint ∧
      (noise = none ∧ a.inverse = none ∧ s' = s ∨
        (noise ≠ none ∨ a.inverse ≠ none) ∧ s'.noiseMatrix = noise.or (some s.next) ∧
          s'.inverseNoiseMatrix = a.inverse.or (some s.next) ∧ s.next ≤ s'.next ∧
          (noise = none ∨ a.inverse = none → s'.next = s.next + 1)) := by
  unfold useMatricesH at h
  cases noise with
  | none =>
    cases hi : a.inverse with
    | none =>
      rw [hi] at h
      obtain ⟨rfl, -⟩ := Prod.mk.inj h
      exact ⟨rfl, rfl, rfl, Or.inl ⟨rfl, rfl, rfl⟩⟩
    | some i =>
      rw [hi] at h
      dsimp only at h
      cases hp : a.call.ps with
      | error e => rw [hp] at h; cases (Prod.mk.inj h).2
      | ok ps =>
        rw [hp] at h
        obtain ⟨rfl, -⟩ := Prod.mk.inj h
        exact ⟨rfl, rfl, rfl, Or.inr ⟨Or.inr (by simp), rfl, rfl, Nat.le_succ _, fun _ => rfl⟩⟩
  | some r =>
    cases hi : a.inverse with
    | some i =>
      rw [hi] at h
      obtain ⟨rfl, -⟩ := Prod.mk.inj h
      exact ⟨rfl, rfl, rfl, Or.inr ⟨Or.inl (by simp), rfl, rfl, le_refl _, fun h => by rcases h with h | h <;> cases h⟩⟩
    | none =>
      rw [hi] at h
      dsimp only at h
      cases hp : a.call.ps.bind (fun ps => cfg.pyInv ps (s.heap r)) with
      | error e => rw [hp] at h; cases (Prod.mk.inj h).2
      | ok v =>
        rw [hp] at h
        obtain ⟨rfl, -⟩ := Prod.mk.inj h
        exact ⟨rfl, rfl, rfl, Or.inr ⟨Or.inl (by simp), rfl, rfl, Nat.le_succ _, fun _ => rfl⟩⟩

/-- The estimates stored are new arrays. -/
theorem estimateNoiseH_ok [NeZero K] {cfg : Settings K} {s s' : HState K} {a : HCall K} {noise : Option ℕ}
    (h : estimateNoiseH cfg s a noise = (s', .ok ())) :
    s'.kwargs = s.kwargs ∧ s'.kwJoint = s.kwJoint ∧
      (noise = none ∧ a.inverse = none ∧ s'.noiseMatrix = some s.next ∧ s'.inverseNoiseMatrix = some (s.next + 1) ∧
          s'.confidentJoint = some (s.next + 2) ∨
        (noise ≠ none ∨ a.inverse ≠ none) ∧ s'.noiseMatrix = s.noiseMatrix ∧
          s'.inverseNoiseMatrix = s.inverseNoiseMatrix ∧ s'.confidentJoint = s.confidentJoint.or (some s.next)) := by
  unfold estimateNoiseH at h
  by_cases hn : noise.isNone = true ∧ a.inverse.isNone = true
  · simp only [if_pos hn] at h
    cases he : estimateLatent (a.call.joint cfg.sort) a.call.labels .cnt cfg.converge with
    | error e => rw [he] at h; cases (Prod.mk.inj h).2
    | ok v =>
      rw [he] at h
      obtain ⟨rfl, -⟩ := Prod.mk.inj h
      exact ⟨rfl, rfl, Or.inl ⟨Option.isNone_iff_eq_none.mp hn.1, Option.isNone_iff_eq_none.mp hn.2, rfl, rfl, rfl⟩⟩
  · simp only [if_neg hn] at h
    have hn' : noise ≠ none ∨ a.inverse ≠ none := by
      rcases noise with _ | r
      · right; intro h; exact hn ⟨rfl, by rw [h]; rfl⟩
      · left; simp
    cases hc : s.confidentJoint with
    | some r =>
      rw [hc] at h
      obtain ⟨rfl, -⟩ := Prod.mk.inj h
      exact ⟨rfl, rfl, Or.inr ⟨hn', rfl, rfl, hc⟩⟩
    | none =>
      rw [hc] at h
      obtain ⟨rfl, -⟩ := Prod.mk.inj h
      exact ⟨rfl, rfl, Or.inr ⟨hn', rfl, rfl, rfl⟩⟩

/-- Where the attributes point to before the writes of `pulearning`, if the array existed before the call. -/
theorem before_pu [NeZero K] {cfg : Settings K} {s s1 s2 s3 s4 : HState K} {a : HCall K} {kw : Kwargs K} {noise : Option ℕ}
    (h1 : processKwargsH s = (s1, .ok kw)) (h2 : latentFromJointH s1 a = (s2, .ok noise))
    (h3 : useMatricesH cfg s2 a noise = (s3, .ok ())) (h4 : estimateNoiseH cfg s3 a noise = (s4, .ok ())) :
    s4.kwJoint = s.kwJoint ∧ (∀ r ∈ s4.noiseMatrix, r < s.next → r ∈ a.noise ∧ s.kwJoint.or s.confidentJoint = none) ∧
      (∀ r ∈ s4.inverseNoiseMatrix, r < s.next → r ∈ a.inverse) ∧
      (∀ r ∈ s4.confidentJoint, r < s.next → r ∈ s.kwJoint.or s.confidentJoint) ∧
      (s.kwJoint.or s.confidentJoint ≠ none → s4.confidentJoint = s.kwJoint.or s.confidentJoint) := by
  have e1 := processKwargsH_ok h1
  have n1 : s1.next = s.next := by rw [e1]
  have c1 : s1.confidentJoint = s.kwJoint.or s.confidentJoint := by rw [e1]
  have j1 : s1.kwJoint = s.kwJoint := by rw [e1]
  obtain ⟨-, j2, c2, l2⟩ := latentFromJointH_ok h2
  obtain ⟨-, j3, c3, l3⟩ := useMatricesH_ok h3
  obtain ⟨-, j4, l4⟩ := estimateNoiseH_ok h4
  have k2 : s1.next ≤ s2.next := by
    have := latentFromJointH_keeps s1 a; rw [h2] at this; exact this.1
  have k3 : s2.next ≤ s3.next := by
    have := useMatricesH_keeps cfg s2 a noise; rw [h3] at this; exact this.1
  have c13 : s3.confidentJoint = s.kwJoint.or s.confidentJoint := c3.trans (c2.trans c1)
  refine ⟨j4.trans (j3.trans (j2.trans j1)), ?_, ?_, ?_, ?_⟩
  · intro r hr hlt
    rcases l4 with ⟨-, -, e, -, -⟩ | ⟨hne, e, -, -⟩
    · rw [e] at hr; cases hr; omega
    · rw [e] at hr
      rcases l3 with ⟨hn, hi, rfl⟩ | ⟨-, e, -, -, -⟩
      · exfalso; rcases hne with h | h
        · exact h hn
        · exact h hi
      · rw [e] at hr
        rcases l2 with ⟨hc, hno, -⟩ | ⟨-, hno, -⟩
        · rw [hno] at hr
          rcases hh : a.noise with _ | r'
          · rw [hh] at hr; cases hr; omega
          · rw [hh] at hr; exact ⟨hr, by rw [← c1]; exact hc⟩
        · rw [hno] at hr; cases hr; omega
  · intro r hr hlt
    rcases l4 with ⟨-, -, -, e, -⟩ | ⟨hne, -, e, -⟩
    · rw [e] at hr; cases hr; omega
    · rw [e] at hr
      rcases l3 with ⟨hn, hi, rfl⟩ | ⟨-, -, e, -, -⟩
      · exfalso; rcases hne with h | h
        · exact h hn
        · exact h hi
      · rw [e] at hr
        rcases hh : a.inverse with _ | r'
        · rw [hh] at hr; cases hr; omega
        · rw [hh] at hr; exact hr
  · intro r hr hlt
    rcases l4 with ⟨-, -, -, -, e⟩ | ⟨-, -, -, e⟩
    · rw [e] at hr; cases hr; omega
    · rw [e, c13] at hr
      rcases hh : s.kwJoint.or s.confidentJoint with _ | r'
      · rw [hh] at hr; cases hr; omega
      · rw [hh] at hr; exact hr
  · intro hne
    rcases l4 with ⟨hn, -, -, -, e⟩ | ⟨-, -, -, e⟩
    · rcases l2 with ⟨hc, -, -⟩ | ⟨-, hno, -⟩
      · exact absurd (c1.symm.trans hc) hne
      · rw [hno] at hn; cases hn
    · rw [e, c13]
      rcases hh : s.kwJoint.or s.confidentJoint with _ | r'
      · exact absurd hh hne
      · rfl

/-- **C116**: in any case only the matrices that the caller gives to this call and the confident joint of the object
are written to. -/
theorem C116_other_arrays [NeZero K] (cfg : Settings K) (s : HState K) (a : HCall K) (r : ℕ) (hr : r < s.next)
    (hn : r ∉ a.noise) (hi : r ∉ a.inverse) (hk : r ∉ s.kwJoint) (hc : r ∉ s.confidentJoint) :
    (findLabelIssuesH cfg s a).1.heap r = s.heap r := by
  have hor : r ∉ s.kwJoint.or s.confidentJoint := by
    cases h : s.kwJoint with
    | none => exact hc
    | some x => rw [h] at hk; exact hk
  have hmask : (findMaskH cfg s a).1.heap r = s.heap r := by
    unfold findMaskH
    have k1 := processKwargsH_keeps s
    rcases h1 : processKwargsH s with ⟨s1, r1⟩
    rw [h1] at k1
    rcases r1 with e | kw
    · exact k1.2 r hr
    dsimp only
    have k2 := latentFromJointH_keeps s1 a
    rcases h2 : latentFromJointH s1 a with ⟨s2, r2⟩
    rw [h2] at k2
    rcases r2 with e | noise
    · exact (k1.trans k2).2 r hr
    dsimp only
    have k3 := useMatricesH_keeps cfg s2 a noise
    rcases h3 : useMatricesH cfg s2 a noise with ⟨s3, r3⟩
    rw [h3] at k3
    rcases r3 with e | u
    · exact ((k1.trans k2).trans k3).2 r hr
    dsimp only
    have k4 := estimateNoiseH_keeps cfg s3 a noise
    rcases h4 : estimateNoiseH cfg s3 a noise with ⟨s4, r4⟩
    rw [h4] at k4
    have k := ((k1.trans k2).trans k3).trans k4
    rcases r4 with e | u
    · exact k.2 r hr
    dsimp only
    obtain ⟨-, b1, b2, b3, -⟩ := before_pu h1 h2 h3 h4
    rw [(addJointH_heap _ kw).1, (puLearningH_heap cfg s4).2 r (fun h => hn (b1 r h hr).1) (fun h => hi (b2 r h hr))
      (fun h => hor (b3 r h hr))]
    exact k.2 r hr
  unfold findLabelIssuesH
  cases checkCall cfg (a.view s.heap) with
  | error e => rfl
  | ok u =>
    dsimp only
    have hk : (if cfg.lowMemory = true then (s, cfg.batched a.call.labels a.call.probs) else findMaskH cfg s a).1.heap r =
        s.heap r := by
      by_cases hl : cfg.lowMemory = true
      · rw [if_pos hl]
      · rw [if_neg hl]; exact hmask
    rcases hm : (if cfg.lowMemory = true then (s, cfg.batched a.call.labels a.call.probs) else findMaskH cfg s a) with ⟨s', mask⟩
    rw [hm] at hk
    dsimp only
    cases mask.bind (issueTable cfg s'.view a.call) with
    | error e => exact hk
    | ok df =>
      dsimp only
      by_cases hs : a.call.saveSpace = true
      · rw [if_pos hs]; exact hk
      · rw [if_neg hs]; exact hk

theorem findLabelIssuesH_heap [NeZero K] {cfg : Settings K} {s : HState K} {a : HCall K} {u : Unit}
    (hc : checkCall cfg (a.view s.heap) = .ok u) (hl : cfg.lowMemory = false) :
    (findLabelIssuesH cfg s a).1.heap = (findMaskH cfg s a).1.heap := by
  unfold findLabelIssuesH
  rw [hc, hl]
  simp only [Bool.false_eq_true, if_false]
  cases (findMaskH cfg s a).2.bind (issueTable cfg (findMaskH cfg s a).1.view a.call) with
  | error e => rfl
  | ok df =>
    dsimp only
    by_cases hs : a.call.saveSpace = true
    · rw [if_pos hs]
    · rw [if_neg hs]

/-- With `pulearning`, a noise matrix given to an object that has no confident joint is overwritten: its column of the
other class becomes that of a class that is never mislabelled. -/
theorem pu_overwrites [NeZero K] {cfg : Settings K} {p q : Fin K} (hK : K = 2) (hp : cfg.pulearning = some p)
    (hq : q.val = 1 - p.val) {s : HState K} {a : HCall K} {kw : Kwargs K} (hkw : s.kwargs = some kw)
    (hu : kw.unsupported = false) (hj : s.kwJoint = none) (hcj : s.confidentJoint = none) {r : ℕ} (hr : r < s.next)
    (hn : a.noise = some r) (hi : a.inverse = none) {v : (Fin K → ℚ) × Mat K}
    (hv : a.call.ps.bind (fun ps => cfg.pyInv ps (s.heap r)) = .ok v) :
    (findMaskH cfg s a).1.heap r = setPair (s.heap r) p q 0 1 := by
  have hne1 : r ≠ s.next := Nat.ne_of_lt hr
  have hne2 : r ≠ s.next + 1 := by omega
  have e1 : processKwargsH s = ({ s with kwargs := some { kw with minExamples := some (kw.minExamples.getD 10) } },
      .ok { kw with minExamples := some (kw.minExamples.getD 10) }) := by
    unfold processKwargsH
    rw [hkw]
    simp [hu, hj, hcj]
  unfold findMaskH
  rw [e1]
  simp only [latentFromJointH, hcj, hn, useMatricesH, hi, hv, HState.alloc, estimateNoiseH, Option.isNone_some,
    Bool.false_eq_true, false_and, if_false]
  rw [(addJointH_heap _ _).1]
  have hqe : (⟨1 - p.val, by omega⟩ : Fin K) = q := Fin.ext hq.symm
  unfold puLearningH
  rw [hp]
  simp only [dif_pos hK, hqe]
  simp [HState.write, Function.update_of_ne hne1, Function.update_of_ne hne2]

/-- A noise matrix that a caller might know: 20% of class 0 are labelled 1, 10% of class 1 are labelled 0. -/
def knownNoise : Mat 2 := ![![8 / 10, 1 / 10], ![2 / 10, 9 / 10]]

/-- `CleanLearning(pulearning=1)`, with array number 0 the noise matrix of the caller. -/
def puState : HState 2 where
  heap := fun _ => knownNoise
  next := 1
  kwargs := some kw1

/-- **C116**: refuted. `CleanLearning(pulearning=1).find_label_issues(labels=..., pred_probs=..., noise_matrix=m)`
overwrites the caller's `m`, here the entry `m[1][0]`, which was 0.2 and is 0 afterwards. -/
theorem C116_not_arrays : ∃ (cfg : Settings 2) (s : HState 2) (a : HCall 2), a.noise = some 0 ∧ 0 < s.next ∧
    s.heap 0 1 0 = 2 / 10 ∧ (findLabelIssuesH cfg s a).1.heap 0 1 0 = 0 := by
  refine ⟨{ cfg2 with pulearning := some 1 }, puState, { call := cleanCall, noise := some 0 }, rfl, Nat.one_pos,
    by decide +kernel, ?_⟩
  have hps : cleanCall.ps = .ok (fun k => (labelCounts cleanCall.labels k : ℚ) / cleanCall.n) := by
    unfold Call.ps
    exact if_pos (by decide +kernel)
  obtain ⟨v, hv⟩ := pyInv2_ok (fun k => (labelCounts cleanCall.labels k : ℚ) / cleanCall.n) knownNoise
    (by decide +kernel)
  have hc : ∃ u, checkCall { cfg2 with pulearning := some 1 }
      (HCall.view { call := cleanCall, noise := some 0 } puState.heap) = .ok u := by
    have h1 : checkInputs (HCall.view { call := cleanCall, noise := some 0 } puState.heap) = .ok () := by
      unfold checkInputs
      rw [if_neg (not_not.mpr ⟨(0 : Fin 4), (2 : Fin 4), by decide +kernel⟩)]
      exact (validate_iff _ _ _).mpr ⟨by decide, Or.inr ⟨(0 : Fin 4), (2 : Fin 4), by decide +kernel⟩,
        fun (i : Fin 4) (k : Fin 2) => by revert i k; decide +kernel⟩
    unfold checkCall
    rw [h1]
    exact ⟨(), by decide +kernel⟩
  obtain ⟨u, hc⟩ := hc
  rw [findLabelIssuesH_heap hc rfl, pu_overwrites (p := 1) (q := 0) rfl rfl rfl rfl rfl rfl rfl Nat.one_pos rfl rfl
    (v := v) (by show cleanCall.ps.bind _ = _; rw [hps]; exact hv)]
  rfl

/-! ### References and values -/

theorem view_alloc {s : HState K} {a : HCall K} (hw : WF s a) (m : Mat K) : (s.alloc m).1.view = s.view := by
  have key : ∀ o : Option ℕ, (∀ r ∈ o, r < s.next) → o.map (Function.update s.heap s.next m) = o.map s.heap := by
    intro o ho
    cases o with
    | none => rfl
    | some r => simp [Function.update_of_ne (Nat.ne_of_lt (ho r rfl))]
  obtain ⟨w1, w2, w3, w4, -, -⟩ := hw
  unfold HState.view HState.alloc
  dsimp only
  rw [key _ w1, key _ w2, key _ w3, key _ w4]

theorem view_args {s s' : HState K} {a : HCall K} (hw : WF s a) (hk : Keeps s s') : a.view s'.heap = a.view s.heap := by
  have key : ∀ o : Option ℕ, (∀ r ∈ o, r < s.next) → o.map s'.heap = o.map s.heap := by
    intro o ho
    cases o with
    | none => rfl
    | some r => simp [hk.2 r (ho r rfl)]
  unfold HCall.view
  rw [key _ hw.2.2.2.2.1, key _ hw.2.2.2.2.2]

theorem processKwargsH_view (s : HState K) :
    processKwargs s.view = ((processKwargsH s).1.view,
      (processKwargsH s).2.map (fun kw => { kw with confidentJoint := s.kwJoint.map s.heap })) := by
  unfold processKwargs processKwargsH
  cases hk : s.kwargs with
  | none => simp [HState.view, hk, Except.map]
  | some kw =>
    have : s.view.kwargs = some { kw with confidentJoint := s.kwJoint.map s.heap } := by simp [HState.view, hk]
    rw [this]
    dsimp only
    by_cases hu : kw.unsupported = true
    · rw [if_pos hu, if_pos hu]; rfl
    · rw [if_neg hu, if_neg hu]
      cases hj : s.kwJoint <;> simp [HState.view, hj, Except.map]

theorem latentFromJointH_view {s : HState K} {a : HCall K} (hw : WF s a) :
    latentFromJoint s.view (a.view s.heap) = ((latentFromJointH s a).1.view,
      (latentFromJointH s a).2.map (Option.map (latentFromJointH s a).1.heap)) := by
  unfold latentFromJoint latentFromJointH
  cases hc : s.confidentJoint with
  | none =>
    have : s.view.confidentJoint = none := by simp [HState.view, hc]
    rw [this]
    rfl
  | some r =>
    have : s.view.confidentJoint = some (s.heap r) := by simp [HState.view, hc]
    rw [this]
    dsimp only
    cases he : estimateLatent (s.heap r) a.call.labels .cnt false with
    | error e =>
      have he' : estimateLatent (s.heap r) (a.view s.heap).labels .cnt false = .error e := he
      rw [he']; rfl
    | ok v =>
      obtain ⟨py, noise, inv⟩ := v
      have he' : estimateLatent (s.heap r) (a.view s.heap).labels .cnt false = .ok (py, noise, inv) := he
      rw [he']
      dsimp only
      have hv := view_alloc hw noise
      refine Prod.ext ?_ ?_
      · rw [← this]
        show { s.view with py := some py } = { (s.alloc noise).1.view with py := some py }
        rw [hv]
      · simp [HState.alloc, Except.map]

theorem useMatricesH_view (cfg : Settings K) {s : HState K} {a : HCall K} {noise : Option ℕ} (hw : WF s a)
    (hn : ∀ r ∈ noise, r < s.next) :
    useMatrices cfg s.view (a.view s.heap) (noise.map s.heap) =
      ((useMatricesH cfg s a noise).1.view, (useMatricesH cfg s a noise).2) := by
  unfold useMatrices useMatricesH
  have hps : (a.view s.heap).ps = a.call.ps := rfl
  have hup : ∀ (m : Mat K) r, r < s.next → Function.update s.heap s.next m r = s.heap r :=
    fun m r hr => Function.update_of_ne (Nat.ne_of_lt hr) _ _
  cases noise with
  | none =>
    cases hi : a.inverse with
    | none =>
      have : (a.view s.heap).inverseNoiseMatrix = none := by simp [HCall.view, hi]
      rw [this]; rfl
    | some i =>
      have : (a.view s.heap).inverseNoiseMatrix = some (s.heap i) := by simp [HCall.view, hi]
      rw [this, hps]
      dsimp only [Option.map_none]
      cases hp : a.call.ps with
      | error e => rfl
      | ok ps =>
        dsimp only
        have hv := view_alloc hw (computeNoiseMatrixFromInverse ps (s.heap i) none)
        refine Prod.ext ?_ rfl
        have e : ({ (s.alloc (computeNoiseMatrixFromInverse ps (s.heap i) none)).1 with
            inverseNoiseMatrix := some i, noiseMatrix := some s.next } : HState K).view =
          { (s.alloc (computeNoiseMatrixFromInverse ps (s.heap i) none)).1.view with
            inverseNoiseMatrix := some (s.heap i)
            noiseMatrix := some (computeNoiseMatrixFromInverse ps (s.heap i) none) } := by
          simp [HState.view, HState.alloc, hup _ i (hw.2.2.2.2.2 i (by rw [hi]; rfl))]
        exact (congrArg (fun t : State K => { t with
          inverseNoiseMatrix := some (s.heap i)
          noiseMatrix := some (computeNoiseMatrixFromInverse ps (s.heap i) none) }) hv.symm).trans e.symm
  | some r =>
    have hr := hn r rfl
    cases hi : a.inverse with
    | some i =>
      have : (a.view s.heap).inverseNoiseMatrix = some (s.heap i) := by simp [HCall.view, hi]
      rw [this]; rfl
    | none =>
      have : (a.view s.heap).inverseNoiseMatrix = none := by simp [HCall.view, hi]
      rw [this, hps]
      dsimp only [Option.map_some]
      cases hp : a.call.ps.bind (fun ps => cfg.pyInv ps (s.heap r)) with
      | error e => rfl
      | ok v =>
        obtain ⟨py, inv⟩ := v
        dsimp only
        have hv := view_alloc hw inv
        refine Prod.ext ?_ rfl
        have e : ({ (s.alloc inv).1 with
            noiseMatrix := some r, py := some py, inverseNoiseMatrix := some s.next } : HState K).view =
          { (s.alloc inv).1.view with
            noiseMatrix := some (s.heap r), py := some py, inverseNoiseMatrix := some inv } := by
          simp [HState.view, HState.alloc, hup _ r hr]
        exact (congrArg (fun t : State K => { t with
          noiseMatrix := some (s.heap r), py := some py, inverseNoiseMatrix := some inv }) hv.symm).trans e.symm

theorem WF.alloc {s : HState K} {a : HCall K} (hw : WF s a) (m : Mat K) : WF (s.alloc m).1 a := by
  obtain ⟨w1, w2, w3, w4, w5, w6⟩ := hw
  have h : ∀ {o : Option ℕ}, (∀ r ∈ o, r < s.next) → ∀ r ∈ o, r < s.next + 1 := fun h r hr => Nat.lt_succ_of_lt (h r hr)
  exact ⟨h w1, h w2, h w3, h w4, h w5, h w6⟩

theorem estimateNoiseH_view [NeZero K] (cfg : Settings K) {s : HState K} {a : HCall K} {noise : Option ℕ} (hw : WF s a) :
    estimateNoise cfg s.view (a.view s.heap) (noise.map s.heap) =
      ((estimateNoiseH cfg s a noise).1.view, (estimateNoiseH cfg s a noise).2) := by
  unfold estimateNoise estimateNoiseH
  have hj : (a.view s.heap).joint cfg.sort = a.call.joint cfg.sort := rfl
  have hi : (a.view s.heap).inverseNoiseMatrix.isNone = a.inverse.isNone := by
    simp [HCall.view]
  have hn : (noise.map s.heap).isNone = noise.isNone := by simp
  rw [hj, hi, hn]
  dsimp only
  by_cases hc : noise.isNone = true ∧ a.inverse.isNone = true
  · rw [if_pos hc, if_pos hc]
    cases he : estimateLatent (a.call.joint cfg.sort) a.call.labels .cnt cfg.converge with
    | error e =>
      have he' : estimateLatent (a.call.joint cfg.sort) (a.view s.heap).labels .cnt cfg.converge = .error e := he
      rw [he']
    | ok v =>
      obtain ⟨py, m, inv⟩ := v
      have he' : estimateLatent (a.call.joint cfg.sort) (a.view s.heap).labels .cnt cfg.converge = .ok (py, m, inv) := he
      rw [he']
      dsimp only
      have v1 := view_alloc hw m
      have v2 := view_alloc (hw.alloc m) inv
      have v3 := view_alloc ((hw.alloc m).alloc inv) (a.call.joint cfg.sort)
      refine Prod.ext ?_ rfl
      have hv := v3.trans (v2.trans v1)
      have e : ({ (((s.alloc m).1.alloc inv).1.alloc (a.call.joint cfg.sort)).1 with
            py := some py, noiseMatrix := some s.next, inverseNoiseMatrix := some (s.next + 1)
            confidentJoint := some (s.next + 2) } : HState K).view =
          { (((s.alloc m).1.alloc inv).1.alloc (a.call.joint cfg.sort)).1.view with
            py := some py, noiseMatrix := some m, inverseNoiseMatrix := some inv
            confidentJoint := some (a.call.joint cfg.sort) } := by
        have n1 : s.next ≠ s.next + 1 + 1 := by omega
        simp [HState.view, HState.alloc, Function.update_of_ne n1]
      exact (congrArg (fun t : State K => { t with
        py := some py, noiseMatrix := some m, inverseNoiseMatrix := some inv
        confidentJoint := some (a.call.joint cfg.sort) }) hv.symm).trans e.symm
  · rw [if_neg hc, if_neg hc]
    cases hcj : s.confidentJoint with
    | some r =>
      have : s.view.confidentJoint = some (s.heap r) := by simp [HState.view, hcj]
      rw [this]
    | none =>
      have : s.view.confidentJoint = none := by simp [HState.view, hcj]
      rw [this]
      dsimp only
      have hv := view_alloc hw (a.call.joint cfg.sort)
      refine Prod.ext ?_ rfl
      have e : ({ (s.alloc (a.call.joint cfg.sort)).1 with confidentJoint := some s.next } : HState K).view =
          { (s.alloc (a.call.joint cfg.sort)).1.view with confidentJoint := some (a.call.joint cfg.sort) } := by
        simp [HState.view, HState.alloc]
      exact (congrArg (fun t : State K => { t with confidentJoint := some (a.call.joint cfg.sort) }) hv.symm).trans e.symm

/-- The arrays that `pulearning` writes to are different ones if the caller gives different ones. -/
theorem distinct_pu [NeZero K] {cfg : Settings K} {s s1 s2 s3 s4 : HState K} {a : HCall K} {kw : Kwargs K} {noise : Option ℕ}
    (hw : WF s a) (hd : ∀ r ∈ a.noise, r ∉ a.inverse) (hd' : ∀ r ∈ a.inverse, r ∉ s.kwJoint.or s.confidentJoint)
    (h1 : processKwargsH s = (s1, .ok kw)) (h2 : latentFromJointH s1 a = (s2, .ok noise))
    (h3 : useMatricesH cfg s2 a noise = (s3, .ok ())) (h4 : estimateNoiseH cfg s3 a noise = (s4, .ok ())) :
    (∀ r ∈ s4.noiseMatrix, r ∉ s4.inverseNoiseMatrix) ∧ (∀ r ∈ s4.noiseMatrix, r ∉ s4.confidentJoint) ∧
      ∀ r ∈ s4.inverseNoiseMatrix, r ∉ s4.confidentJoint := by
  have e1 := processKwargsH_ok h1
  have n1 : s1.next = s.next := by rw [e1]
  have c1 : s1.confidentJoint = s.kwJoint.or s.confidentJoint := by rw [e1]
  obtain ⟨-, -, c2, l2⟩ := latentFromJointH_ok h2
  obtain ⟨-, -, c3, l3⟩ := useMatricesH_ok h3
  obtain ⟨-, -, l4⟩ := estimateNoiseH_ok h4
  have c13 : s3.confidentJoint = s.kwJoint.or s.confidentJoint := c3.trans (c2.trans c1)
  have wc : ∀ r ∈ s.kwJoint.or s.confidentJoint, r < s.next := by
    intro r hr
    cases h : s.kwJoint with
    | none => rw [h] at hr; exact hw.2.1 r hr
    | some x => rw [h] at hr; exact hw.1 r (by rw [h]; exact hr)
  rcases l4 with ⟨-, -, eN, eI, eC⟩ | ⟨hne, eN, eI, eC⟩
  · rw [eN, eI, eC]
    refine ⟨?_, ?_, ?_⟩ <;> (intro r hr hr'; cases hr; have := Option.some.inj hr'; omega)
  · rcases l3 with ⟨hn, hi, -⟩ | ⟨-, eN', eI', n3, n3'⟩
    · exfalso; rcases hne with h | h
      · exact h hn
      · exact h hi
    rw [eN, eI, eC, eN', eI', c13]
    rcases l2 with ⟨hc, hno, e2⟩ | ⟨hc, hno, n2⟩
    · rw [c1] at hc
      rw [hc, hno]
      rw [hno] at n3' hne
      have n2 : s2.next = s.next := by rw [e2]; exact n1
      have wn := hw.2.2.2.2.1
      have wi := hw.2.2.2.2.2
      cases hN : a.noise with
      | none =>
        cases hI : a.inverse with
        | none => rw [hN, hI] at hne; rcases hne with h | h <;> exact absurd rfl h
        | some i =>
          have hi := wi i (by rw [hI]; rfl)
          have := n3' (Or.inl hN)
          refine ⟨?_, ?_, ?_⟩ <;> (intro r hr hr'; cases hr; have := Option.some.inj hr'; omega)
      | some r0 =>
        have hr0 := wn r0 (by rw [hN]; rfl)
        cases hI : a.inverse with
        | none =>
          have := n3' (Or.inr hI)
          refine ⟨?_, ?_, ?_⟩ <;> (intro r hr hr'; cases hr; have := Option.some.inj hr'; omega)
        | some i =>
          have hi := wi i (by rw [hI]; rfl)
          have hne0 : r0 ≠ i := fun e => hd r0 (by rw [hN]; rfl) (by rw [hI, e]; rfl)
          refine ⟨?_, ?_, ?_⟩ <;> (intro r hr hr'; cases hr; have := Option.some.inj hr'; omega)
    · rw [c1] at hc
      rw [hno]
      obtain ⟨c, hcc⟩ := Option.ne_none_iff_exists'.mp hc
      have hcl := wc c (by rw [hcc]; rfl)
      rw [hcc]
      have wi := hw.2.2.2.2.2
      cases hI : a.inverse with
      | none =>
        refine ⟨?_, ?_, ?_⟩ <;> (intro r hr hr'; cases hr; have := Option.some.inj hr'; omega)
      | some i =>
        have hi := wi i (by rw [hI]; rfl)
        have hne0 : i ≠ c := fun e => hd' i (by rw [hI]; rfl) (by rw [hcc, e]; rfl)
        refine ⟨?_, ?_, ?_⟩ <;> (intro r hr hr'; cases hr; have := Option.some.inj hr'; omega)

set_option linter.unusedSimpArgs false in
/-- The last step on references and on values. -/
theorem lastStep_view [NeZero K] (cfg : Settings K) (s : HState K) (kw : Kwargs K)
    (hNI : ∀ r ∈ s.noiseMatrix, r ∉ s.inverseNoiseMatrix) (hNC : ∀ r ∈ s.noiseMatrix, r ∉ s.confidentJoint)
    (hIC : ∀ r ∈ s.inverseNoiseMatrix, r ∉ s.confidentJoint) (hJ : s.kwJoint ≠ none → s.kwJoint = s.confidentJoint) :
    let v := puLearning cfg s.view { kw with confidentJoint := s.kwJoint.map s.heap }
    let t := addJointH (puLearningH cfg s) kw
    ({ v.1 with kwargs := some (addJoint v.1 v.2) } : State K) = t.view ∧
      addJoint v.1 v.2 = { kw with confidentJoint := t.kwJoint.map t.heap } := by
  have key : let v := puLearning cfg s.view { kw with confidentJoint := s.kwJoint.map s.heap }
      let u := puLearningH cfg s
      u.kwJoint = s.kwJoint ∧ v.2 = { kw with confidentJoint := u.kwJoint.map u.heap } ∧
        v.1.confidentJoint = u.view.confidentJoint ∧ v.1.py = u.view.py ∧ v.1.noiseMatrix = u.view.noiseMatrix ∧
        v.1.inverseNoiseMatrix = u.view.inverseNoiseMatrix ∧ v.1.labelIssuesMask = u.view.labelIssuesMask ∧
        v.1.sampleWeight = u.view.sampleWeight := by
    unfold puLearning puLearningH
    cases hp : cfg.pulearning with
    | none => exact ⟨rfl, rfl, rfl, rfl, rfl, rfl, rfl, rfl⟩
    | some p =>
      dsimp only
      by_cases hK : K = 2
      · simp only [dif_pos hK]
        cases hN : s.noiseMatrix <;> cases hI : s.inverseNoiseMatrix <;> cases hC : s.confidentJoint <;>
          cases hJ' : s.kwJoint <;> simp only [hN, hI, hC, hJ', Option.mem_def, Option.some.injEq, ne_eq, reduceCtorEq,
            not_true_eq_false, not_false_eq_true, forall_const, false_imp_iff, forall_eq'] at hNI hNC hIC hJ <;>
          first
          | exact hJ.elim
          | simp [HState.write, HState.view, hN, hI, hC, hJ', Function.update_apply, hNI, hNC, hIC, hJ, Ne.symm hNI,
              Ne.symm hNC, Ne.symm hIC]
          | simp [HState.write, HState.view, hN, hI, hC, hJ', Function.update_apply, hNI, hNC, hIC, hJ, Ne.symm hIC]
          | simp [HState.write, HState.view, hN, hI, hC, hJ', Function.update_apply, hNI, hNC, hIC, hJ, Ne.symm hNC]
          | simp [HState.write, HState.view, hN, hI, hC, hJ', Function.update_apply, hNI, hNC, hIC, hJ, Ne.symm hNI]
          | simp [HState.write, HState.view, hN, hI, hC, hJ', Function.update_apply, hNI, hNC, hIC, hJ]
      · rw [dif_neg hK, dif_neg hK]
        exact ⟨rfl, rfl, rfl, rfl, rfl, rfl, rfl, rfl⟩
  dsimp only at key ⊢
  obtain ⟨k1, k2, k3, k4, k5, k6, k7, k8⟩ := key
  rw [k2]
  unfold addJoint addJointH
  have hb : ((puLearningH cfg s).kwJoint.map (puLearningH cfg s).heap).isNone = (puLearningH cfg s).kwJoint.isNone := by simp
  by_cases hc : (puLearningH cfg s).kwJoint.isNone = true ∧ kw.filterBy ≠ some .confidentLearning
  · rw [if_pos hc]
    simp only [hb, if_pos hc]
    rw [k3]
    refine ⟨?_, rfl⟩
    unfold HState.view at k3 k4 k5 k6 k7 k8 ⊢
    simp [k3, k4, k5, k6, k7, k8]
  · rw [if_neg hc]
    simp only [hb, if_neg hc]
    refine ⟨?_, trivial⟩
    unfold HState.view at k3 k4 k5 k6 k7 k8 ⊢
    simp [k3, k4, k5, k6, k7, k8]

theorem WF.step {s s' : HState K} {a : HCall K} (hw : WF s a) (hn : s.next ≤ s'.next)
    (h1 : ∀ r ∈ s'.kwJoint, r < s'.next) (h2 : ∀ r ∈ s'.confidentJoint, r < s'.next)
    (h3 : ∀ r ∈ s'.noiseMatrix, r < s'.next) (h4 : ∀ r ∈ s'.inverseNoiseMatrix, r < s'.next) : WF s' a :=
  ⟨h1, h2, h3, h4, fun r hr => (hw.2.2.2.2.1 r hr).trans_le hn, fun r hr => (hw.2.2.2.2.2 r hr).trans_le hn⟩

theorem processKwargsH_wf {s s' : HState K} {a : HCall K} {kw : Kwargs K} (hw : WF s a)
    (h : processKwargsH s = (s', .ok kw)) : WF s' a := by
  rw [processKwargsH_ok h]
  refine hw.step (le_refl _) hw.1 ?_ hw.2.2.1 hw.2.2.2.1
  intro r hr
  show r < s.next
  cases hj : s.kwJoint with
  | none => exact hw.2.1 r (by simpa [hj] using hr)
  | some x => exact hw.1 r (by simpa [hj] using hr)

theorem latentFromJointH_wf {s s' : HState K} {a : HCall K} {noise : Option ℕ} (hw : WF s a)
    (h : latentFromJointH s a = (s', .ok noise)) : WF s' a ∧ ∀ r ∈ noise, r < s'.next := by
  unfold latentFromJointH at h
  cases hc : s.confidentJoint with
  | none =>
    rw [hc] at h
    obtain ⟨rfl, h2⟩ := Prod.mk.inj h
    rw [← Except.ok.inj h2]
    exact ⟨hw, hw.2.2.2.2.1⟩
  | some r =>
    rw [hc] at h
    dsimp only at h
    cases he : estimateLatent (s.heap r) a.call.labels .cnt false with
    | error e => rw [he] at h; cases (Prod.mk.inj h).2
    | ok v =>
      rw [he] at h
      obtain ⟨rfl, h2⟩ := Prod.mk.inj h
      rw [← Except.ok.inj h2]
      exact ⟨hw.alloc v.2.1, fun r hr => by cases hr; exact Nat.lt_succ_self _⟩

theorem useMatricesH_wf {cfg : Settings K} {s s' : HState K} {a : HCall K} {noise : Option ℕ} (hw : WF s a)
    (hn : ∀ r ∈ noise, r < s.next) (h : useMatricesH cfg s a noise = (s', .ok ())) : WF s' a := by
  have hk := useMatricesH_keeps cfg s a noise
  rw [h] at hk
  obtain ⟨-, j, c, l⟩ := useMatricesH_ok h
  rcases l with ⟨-, -, rfl⟩ | ⟨hne, eN, eI, hle, hnext⟩
  · exact hw
  refine hw.step hle (fun r hr => (hw.1 r (j ▸ hr)).trans_le hle) (fun r hr => (hw.2.1 r (c ▸ hr)).trans_le hle) ?_ ?_
  · intro r hr
    rw [eN] at hr
    cases hno : noise with
    | none => rw [hno] at hr; cases hr; rw [hnext (Or.inl hno)]; exact Nat.lt_succ_self _
    | some x => rw [hno] at hr; exact (hn r (by rw [hno]; exact hr)).trans_le hle
  · intro r hr
    rw [eI] at hr
    cases hi : a.inverse with
    | none => rw [hi] at hr; cases hr; rw [hnext (Or.inr hi)]; exact Nat.lt_succ_self _
    | some x => rw [hi] at hr; exact (hw.2.2.2.2.2 r (by rw [hi]; exact hr)).trans_le hle

theorem useMatricesH_noise {cfg : Settings K} {s : HState K} {a : HCall K} {noise : Option ℕ}
    (hn : ∀ r ∈ noise, r < s.next) : noise.map (useMatricesH cfg s a noise).1.heap = noise.map s.heap := by
  have hk := useMatricesH_keeps cfg s a noise
  cases noise with
  | none => rfl
  | some r => simp [hk.2 r (hn r rfl)]

/-- As long as the arrays involved are different ones, references and values give the same: the attributes and the
flags after the call are those of `Verif.Model.CleanLearning`. -/
theorem findMaskH_view [NeZero K] (cfg : Settings K) {s : HState K} {a : HCall K} (hw : WF s a)
    (hd : ∀ r ∈ a.noise, r ∉ a.inverse) (hd' : ∀ r ∈ a.inverse, r ∉ s.kwJoint.or s.confidentJoint) :
    findMask cfg s.view (a.view s.heap) = ((findMaskH cfg s a).1.view, (findMaskH cfg s a).2) := by
  unfold findMask findMaskH
  rw [processKwargsH_view]
  have k1 := processKwargsH_keeps s
  rcases h1 : processKwargsH s with ⟨s1, r1⟩
  rw [h1] at k1
  rcases r1 with e | kw
  · rfl
  have e1 := processKwargsH_ok h1
  have w1 := processKwargsH_wf hw h1
  dsimp only [Except.map]
  have v1 := view_args hw k1
  have L := latentFromJointH_view w1
  rw [v1] at L
  rw [L]
  have k2 := latentFromJointH_keeps s1 a
  rcases h2 : latentFromJointH s1 a with ⟨s2, r2⟩
  rw [h2] at k2
  rcases r2 with e | noise
  · rfl
  obtain ⟨w2, wn⟩ := latentFromJointH_wf w1 h2
  dsimp only [Except.map]
  have v2 := (view_args w1 k2).trans v1
  have U := useMatricesH_view cfg w2 wn
  rw [v2] at U
  rw [U]
  have k3 := useMatricesH_keeps cfg s2 a noise
  have m3 := useMatricesH_noise (cfg := cfg) (a := a) wn
  rcases h3 : useMatricesH cfg s2 a noise with ⟨s3, r3⟩
  rw [h3] at k3 m3
  rcases r3 with e | u
  · rfl
  have w3 := useMatricesH_wf w2 wn h3
  dsimp only
  have E := estimateNoiseH_view cfg (noise := noise) w3
  rw [(view_args w2 k3).trans v2] at E
  rw [← m3, E]
  rcases h4 : estimateNoiseH cfg s3 a noise with ⟨s4, r4⟩
  rcases r4 with e | u
  · rfl
  dsimp only
  obtain ⟨d1, d2, d3⟩ := distinct_pu hw hd hd' h1 h2 h3 h4
  have hb := before_pu h1 h2 h3 h4
  have hJ : s4.kwJoint ≠ none → s4.kwJoint = s4.confidentJoint := by
    intro hne
    rw [hb.1] at hne ⊢
    obtain ⟨r, hr⟩ := Option.ne_none_iff_exists'.mp hne
    have : s.kwJoint.or s.confidentJoint = some r := by rw [hr]; rfl
    rw [hb.2.2.2.2 (by rw [this]; simp), this, hr]
  obtain ⟨f1, f2⟩ := lastStep_view cfg s4 kw d1 d2 d3 hJ
  have hkj : s.kwJoint.map s.heap = s4.kwJoint.map s4.heap := by
    rw [hb.1]
    have k4 := estimateNoiseH_keeps cfg s3 a noise
    rw [h4] at k4
    have k := ((k1.trans k2).trans k3).trans k4
    cases hj : s.kwJoint with
    | none => rfl
    | some r => exact congrArg some (k.2 r (hw.1 r (by rw [hj]; rfl))).symm
  rw [hkj]
  dsimp only at f1 f2
  rw [f1, f2]
  rfl

/-- **C116**: if the arrays of the caller are different objects, then what is returned and the attributes afterwards
depend on their content only: they are those of `Verif.Model.CleanLearning`. -/
theorem C116_values [NeZero K] (cfg : Settings K) {s : HState K} {a : HCall K} (hw : WF s a)
    (hd : ∀ r ∈ a.noise, r ∉ a.inverse) (hd' : ∀ r ∈ a.inverse, r ∉ s.kwJoint.or s.confidentJoint) :
    CleanLearning.findLabelIssues cfg s.view (a.view s.heap) =
      ((findLabelIssuesH cfg s a).1.view, (findLabelIssuesH cfg s a).2) := by
  unfold CleanLearning.findLabelIssues findLabelIssuesH
  cases checkCall cfg (a.view s.heap) with
  | error e => rfl
  | ok u =>
    dsimp only
    have hm := findMaskH_view cfg hw hd hd'
    have fin : ∀ (s' : HState K) (mask : Except String (Fin a.call.n → Bool)),
        (match mask.bind (issueTable cfg s'.view (a.view s.heap)) with
          | .error e => (s'.view, .error e)
          | .ok df => (if (a.view s.heap).saveSpace = true then s'.view else
              { s'.view with labelIssuesMask := some (df.map (·.isLabelIssue)) }, .ok df) :
            State K × Except String (List (IssueRow K))) =
        (fun x : HState K × Except String (List (IssueRow K)) => (x.1.view, x.2))
          (match mask.bind (issueTable cfg s'.view a.call) with
          | .error e => (s', .error e)
          | .ok df => (if a.call.saveSpace = true then s' else
              { s' with labelIssuesMask := some (df.map (·.isLabelIssue)) }, .ok df)) := by
      intro s' mask
      cases hx : mask.bind (issueTable cfg s'.view a.call) with
      | error e =>
        have hx' : Except.bind mask (issueTable cfg s'.view (a.view s.heap)) = .error e := hx
        rw [hx']
      | ok df =>
        have hx' : Except.bind mask (issueTable cfg s'.view (a.view s.heap)) = .ok df := hx
        rw [hx']
        dsimp only
        have hsv : (a.view s.heap).saveSpace = a.call.saveSpace := rfl
        rw [hsv]
        by_cases hs : a.call.saveSpace = true
        · rw [if_pos hs, if_pos hs]
        · rw [if_neg hs, if_neg hs]; rfl
    by_cases hl : cfg.lowMemory = true
    · rw [if_pos hl, if_pos hl]
      exact fin s (cfg.batched a.call.labels a.call.probs)
    · rw [if_neg hl, if_neg hl, hm]
      exact fin (findMaskH cfg s a).1 (findMaskH cfg s a).2

/-- The state of the example: all references exist, and the arrays are different ones. -/
example : WF puState { call := cleanCall, noise := some 0 } ∧ ∀ r ∈ some 0, r ∉ (none : Option ℕ) := by
  refine ⟨⟨?_, ?_, ?_, ?_, ?_, ?_⟩, ?_⟩ <;> intro r hr <;> first | (cases hr; exact Nat.one_pos) | (cases hr; done) | simp

/-! ## The data frame given to `fit` -/

/-- The columns of `f` are also in `f'`, unchanged. -/
def Extends (f f' : Frame K) : Prop :=
  f'.isIssue = f.isIssue ∧ f'.given = f.given ∧ (f.quality ≠ none → f'.quality = f.quality)

/-- **C116**: of the data frame given to `fit` as `label_issues`, the columns `is_label_issue`, `given_label` and, if
present, `label_quality` are not changed. (`sample_weight` may be.) -/
theorem C116_columns_partial (cfg : Settings K) (s : State K) (a : FitCall K) (f : Frame K) :
    Extends f (frameAfter cfg s a f) := by
  have hq : ∀ f', qualityColumn cfg s a f = .ok f' → Extends f f' := by
    intro f' h
    unfold qualityColumn at h
    cases hp : a.predProbs with
    | none => rw [hp] at h; rw [← Except.ok.inj h]; exact ⟨rfl, rfl, fun _ => rfl⟩
    | some P =>
      rw [hp] at h
      dsimp only at h
      by_cases hf : f.quality.isSome = true
      · rw [if_pos hf] at h; rw [← Except.ok.inj h]; exact ⟨rfl, rfl, fun _ => rfl⟩
      · rw [if_neg hf] at h
        cases hs : qualityScores cfg s a.labels P with
        | error e => rw [hs] at h; cases h
        | ok sc =>
          rw [hs] at h
          rw [← Except.ok.inj h]
          exact ⟨rfl, rfl, fun hne => absurd (by simpa using hf) hne⟩
  have hw : ∀ f' flagged, Extends f f' → Extends f (weightColumn s a flagged f') := by
    intro f' flagged h
    unfold weightColumn
    split
    · split
      · exact h
      · exact h
    · exact h
  have h0 : Extends f f := ⟨rfl, rfl, fun _ => rfl⟩
  unfold frameAfter
  by_cases h1 : a.weightInKwargs = true
  · rw [if_pos h1]; exact h0
  rw [if_neg h1]
  by_cases h2 : a.sampleWeight.isSome = true ∧ ¬ a.clfTakesWeight = true
  · rw [if_pos h2]; exact h0
  rw [if_neg h2]
  cases checkInputs a.toCall with
  | error e => exact h0
  | ok u =>
    dsimp only
    cases processArg a.labels (.table f.isIssue f.given) with
    | error e => exact h0
    | ok flagged =>
      dsimp only
      cases hc : qualityColumn cfg s a f with
      | error e => exact h0
      | ok f' => exact hw f' flagged (hq f' hc)

/-- **C116**: the whole frame is unchanged if it has scores or no probabilities are given, and if weights are given or
the object has no noise matrix or the classifier takes no weights. -/
theorem C116_frame_partial (cfg : Settings K) (s : State K) (a : FitCall K) (f : Frame K)
    (hq : f.quality ≠ none ∨ a.predProbs = none)
    (hw : a.sampleWeight ≠ none ∨ a.finalWeight ≠ none ∨ s.noiseMatrix = none ∨ a.clfTakesWeight = false) :
    frameAfter cfg s a f = f := by
  have hqc : qualityColumn cfg s a f = .ok f := by
    unfold qualityColumn
    cases hp : a.predProbs with
    | none => rfl
    | some P =>
      have : f.quality.isSome = true := by
        rcases hq with h | h
        · exact Option.isSome_iff_ne_none.mpr h
        · rw [hp] at h; cases h
      exact if_pos this
  have hwc : ∀ flagged, weightColumn s a flagged f = f := by
    intro flagged
    unfold weightColumn
    cases h1 : a.sampleWeight with
    | some w => rfl
    | none =>
      cases h2 : a.finalWeight with
      | some w => rfl
      | none =>
        cases h3 : s.noiseMatrix with
        | none => rfl
        | some m =>
          rcases hw with h | h | h | h
          · exact absurd h1 h
          · exact absurd h2 h
          · rw [h3] at h; cases h
          · simp [h]
  unfold frameAfter
  by_cases h1 : a.weightInKwargs = true
  · rw [if_pos h1]
  rw [if_neg h1]
  by_cases h2 : a.sampleWeight.isSome = true ∧ ¬ a.clfTakesWeight = true
  · rw [if_pos h2]
  rw [if_neg h2]
  cases checkInputs a.toCall with
  | error e => rfl
  | ok u =>
    dsimp only
    cases processArg a.labels (.table f.isIssue f.given) with
    | error e => rfl
    | ok flagged =>
      dsimp only
      rw [hqc]
      exact hwc flagged

/-- **C116.** The column `sample_weight` that the caller finds in the frame is the attribute `sample_weight`. -/
theorem C116_weight_column [NeZero K] {cfg : Settings K} {s : State K} {a : FitCall K} {f : Frame K} {tr : Training a.n K}
    (h : (CleanLearning.fit cfg s (a.withFrame f)).2 = .ok tr) (h1 : a.sampleWeight = none) (h2 : a.finalWeight = none)
    (h3 : s.noiseMatrix ≠ none) (h4 : a.clfTakesWeight = true) :
    (frameAfter cfg s a f).weight = (CleanLearning.fit cfg s (a.withFrame f)).1.sampleWeight ∧
      (frameAfter cfg s a f).weight ≠ none := by
  obtain ⟨m, hm⟩ := Option.ne_none_iff_exists'.mp h3
  unfold CleanLearning.fit at h ⊢
  unfold frameAfter
  have ew : (a.withFrame f).weightInKwargs = a.weightInKwargs := rfl
  have es : (a.withFrame f).sampleWeight = none := h1
  have ef : (a.withFrame f).finalWeight = none := h2
  have et : (a.withFrame f).clfTakesWeight = true := h4
  have el : (a.withFrame f).labelIssues = some (.table f.isIssue f.given) := rfl
  have ec : checkInputs (a.withFrame f).toCall = checkInputs a.toCall := rfl
  have ep : processArg (a.withFrame f).labels (.table f.isIssue f.given) =
    processArg a.labels (.table f.isIssue f.given) := rfl
  rw [ew, el] at h ⊢
  by_cases hk : a.weightInKwargs = true
  · rw [if_pos hk] at h; cases h
  rw [if_neg hk] at h ⊢
  have hb : ¬ ((a.withFrame f).sampleWeight.isSome = true ∧ ¬ (a.withFrame f).clfTakesWeight = true) := by
    rw [es]; simp
  have hb' : ¬ (a.sampleWeight.isSome = true ∧ ¬ a.clfTakesWeight = true) := hb
  rw [if_neg hb] at h
  rw [if_neg hb, if_neg hk, if_neg hb']
  dsimp only at h ⊢
  rw [ec] at h ⊢
  cases hc : checkInputs a.toCall with
  | error e => rw [hc] at h; cases h
  | ok u =>
    rw [hc] at h
    dsimp only at h ⊢
    cases hp : processArg a.labels (.table f.isIssue f.given) with
    | error e =>
      have hp' : processArg (a.withFrame f).labels (.table f.isIssue f.given) = .error e := hp
      rw [hp'] at h; cases h
    | ok flagged =>
      have hp' : processArg (a.withFrame f).labels (.table f.isIssue f.given) = .ok flagged := hp
      rw [hp'] at h ⊢
      dsimp only at h ⊢
      have hq : addQuality cfg s (a.withFrame f) = (qualityColumn cfg s a f).map (fun _ => ()) := by
        unfold addQuality qualityColumn
        have e1 : (a.withFrame f).predProbs = a.predProbs := rfl
        have e2 : (a.withFrame f).hasQuality = f.quality.isSome := rfl
        have e3 : ∀ P, qualityScores cfg s (a.withFrame f).labels P = qualityScores cfg s a.labels P := fun _ => rfl
        cases hP : a.predProbs with
        | none => rw [e1.trans hP]; rfl
        | some P =>
          rw [e1.trans hP]
          dsimp only
          rw [e2]
          by_cases hf : f.quality.isSome = true
          · rw [if_pos hf, if_pos hf]; rfl
          · rw [if_neg hf, if_neg hf]
            cases hx : qualityScores cfg s a.labels P with
            | error e => rw [(e3 P).trans hx]; rfl
            | ok sc => rw [(e3 P).trans hx]; rfl
      rw [hq] at h ⊢
      cases hqc : qualityColumn cfg s a f with
      | error e => rw [hqc] at h; cases h
      | ok f' =>
        dsimp only [Except.map]
        unfold weightColumn finalFit
        rw [es, ef, h1, h2, hm, et, h4]
        simp only [if_true]
        exact ⟨rfl, by simp⟩

/-- A call of `fit` with the probabilities and labels of `noisyCall`. -/
def plainFit : FitCall 2 := { toCall := noisyCall }

theorem noisyCall_checked : checkInputs noisyCall = .ok () := by
  unfold checkInputs
  rw [if_neg (not_not.mpr ⟨(0 : Fin 5), (3 : Fin 5), by decide +kernel⟩)]
  exact (validate_iff _ _ _).mpr ⟨by decide, Or.inr ⟨(0 : Fin 5), (3 : Fin 5), by decide +kernel⟩,
    fun (i : Fin 5) (k : Fin 2) => by revert i k; decide +kernel⟩

/-- A frame as built by hand: only the flags. -/
def bareFrame : Frame 2 := { isIssue := [false, false, true, false, false] }

/-- **C116**: refuted. `fit(..., pred_probs=pred_probs, label_issues=df)` adds the column `label_quality` to the
caller's `df`. -/
theorem C116_not_frame : ∃ (cfg : Settings 2) (s : State 2) (a : FitCall 2) (f : Frame 2),
    (∃ tr, (CleanLearning.fit cfg s (a.withFrame f)).2 = .ok tr) ∧ f.quality = none ∧
      (frameAfter cfg s a f).quality = some [9 / 10, 9 / 10, 1 / 10, 9 / 10, 9 / 10] := by
  have hv := noisyCall_checked
  refine ⟨cfg2, fresh kw1, plainFit, bareFrame, ⟨(finalFit (fresh kw1) (plainFit.withFrame bareFrame)
    (fun i : Fin 5 => bareFrame.isIssue[i.val])).2, ?_⟩, rfl, ?_⟩
  · unfold CleanLearning.fit
    have : checkInputs (plainFit.withFrame bareFrame).toCall = .ok () := hv
    simp only [show (plainFit.withFrame bareFrame).labelIssues = some (.table bareFrame.isIssue none) from rfl, this]
    rfl
  · unfold frameAfter
    have : checkInputs plainFit.toCall = .ok () := hv
    rw [this]
    decide +kernel

/-- **C116**: refuted, with an effect on later results: if the same frame is given to `fit` twice, with probabilities
`P` and then `P'`, the column `label_quality`, also that of `get_label_issues()`, keeps the scores of `P`. -/
theorem C116_not_second_fit (cfg : Settings K) (s s' : State K) (a a' : FitCall K) (f : Frame K)
    (hf : f.quality = none) {P : Fin a.n → Fin K → ℚ} (hP : a.predProbs = some P) {sc : Fin a.n → ℚ}
    (hs : qualityScores cfg s a.labels P = .ok sc) (hk : a.weightInKwargs = false) (hw : a.sampleWeight = none)
    (hc : checkInputs a.toCall = .ok ()) (hl : f.isIssue.length = a.n) (hg : f.given = none) :
    (frameAfter cfg s' a' (frameAfter cfg s a f)).quality = some (List.ofFn sc) := by
  have h1 : (frameAfter cfg s a f).quality = some (List.ofFn sc) := by
    unfold frameAfter
    rw [if_neg (by rw [hk]; simp), if_neg (by rw [hw]; simp), hc]
    dsimp only [processArg]
    rw [dif_pos hl, hg]
    dsimp only [Option.any]
    rw [if_neg (by simp)]
    unfold qualityColumn
    rw [hP]
    dsimp only
    rw [if_neg (by rw [hf]; simp), hs]
    dsimp only [Except.map]
    unfold weightColumn
    split
    · split
      · rfl
      · rfl
    · rfl
  rw [(C116_columns_partial cfg s' a' _).2.2 (by rw [h1]; simp), h1]

/-- Whatever the second call is, it keeps the scores of the first. -/
example (s' : State 2) (a' : FitCall 2) :
    (frameAfter cfg2 s' a' (frameAfter cfg2 (fresh kw1) plainFit bareFrame)).quality =
      some (List.ofFn (fun i : Fin 5 => (![9 / 10, 9 / 10, 1 / 10, 9 / 10, 9 / 10] : Fin 5 → ℚ) i)) := by
  have hs : qualityScores cfg2 (fresh kw1) plainFit.labels plainFit.probs =
      .ok (fun i : Fin 5 => plainFit.probs i (plainFit.labels i)) := rfl
  rw [C116_not_second_fit cfg2 (fresh kw1) s' plainFit a' bareFrame rfl (P := plainFit.probs) rfl hs rfl rfl
    noisyCall_checked rfl rfl]
  exact congrArg some (by decide +kernel)

end Cleanlab.Props
