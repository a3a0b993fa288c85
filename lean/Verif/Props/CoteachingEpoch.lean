import Verif.Model.CoteachingEpoch
import Verif.Props.Coteaching

/-!
# C146: an epoch of co-teaching and the evaluation of its networks
-/

namespace Cleanlab.Props

open Np Cleanlab.Coteaching

variable {W Ex : Type}

/-- The batches an epoch learns from: all of them, except for the last one if it has fewer than 16 examples. -/
def usedBatches (loader : List (List Ex)) : List (List Ex) :=
  match loader.getLast? with
  | none => []
  | some b => if b.length < 16 then loader.dropLast else loader

/-- `s` consists of `m` of the examples, none with a larger loss than one left out. -/
structure EasiestExamples (loss : Ex → ℚ) (batch : List Ex) (m : ℕ) (s : List Ex) : Prop where
  length : s.length = m
  rest : ∃ r, (s ++ r).Perm batch ∧ ∀ x ∈ s, ∀ y ∈ r, loss x ≤ loss y

theorem selected_spec (A : ArgSort ℚ) (S : Setup W Ex) (w : W) (forget : ℚ) (h0 : 0 ≤ forget) (batch : List Ex) :
    EasiestExamples (S.loss w) batch ⌊(1 - forget) * batch.length⌋.toNat (selected A S w forget batch) := by
  have hm := numRemember_le forget h0 batch.length
  have hs := A.pairwise_indices (fun i => S.loss w (batch.get i))
  refine ⟨?_, ((A.indices (fun i => S.loss w (batch.get i))).drop (numRemember forget batch.length)).map batch.get, ?_, ?_⟩
  · unfold selected
    rw [List.length_map, (remembered_spec A _ _ hm).length]
    rfl
  · unfold selected remembered
    rw [← List.map_append, List.take_append_drop]
    have := (A.perm_indices (fun i => S.loss w (batch.get i))).map batch.get
    rwa [← List.ofFn_eq_map, List.ofFn_get] at this
  · intro x hx y hy
    obtain ⟨i, hi, rfl⟩ := List.mem_map.mp hx
    obtain ⟨j, hj, rfl⟩ := List.mem_map.mp hy
    rw [← List.take_append_drop (numRemember forget batch.length) (A.indices _), List.pairwise_append] at hs
    exact hs.2.2 i hi j hj

/-- The states of both networks before each of the batches and at the end. -/
def IsCourse (S : Setup W Ex) (forget : ℚ) (batches : List (List Ex)) (states : List (W × W)) : Prop :=
  states.length = batches.length + 1 ∧
  ∀ (i : ℕ) (b : List Ex) (s s' : W × W), batches[i]? = some b → states[i]? = some s → states[i + 1]? = some s' →
    ∃ e1 e2, EasiestExamples (S.loss s.2) b ⌊(1 - forget) * b.length⌋.toNat e2 ∧
      EasiestExamples (S.loss s.1) b ⌊(1 - forget) * b.length⌋.toNat e1 ∧ s' = (S.step s.1 e2, S.step s.2 e1)

/-- The sum of the accuracies reached on the batches before learning from them. -/
def accuracySum (S : Setup W Ex) (net : W × W → W) (batches : List (List Ex)) (states : List (W × W)) : ℚ :=
  ((batches.zip states).map (fun x => S.accuracy (net x.2) x.1)).sum

theorem trainLoop_used (A : ArgSort ℚ) (S : Setup W Ex) (schedule : List ℚ) (epoch m : ℕ) (i : ℕ) (bs : List (List Ex))
    (hm : i + bs.length = m) (f : ℚ) (hf : schedule[epoch]? = some f) (p : Progress W) :
    trainLoop A S schedule epoch m i bs p = .ok ((usedBatches bs).foldl (trainBatch A S f) p) := by
  induction bs generalizing i p with
  | nil => rfl
  | cons b bs ih =>
    have h := ih (i + 1) (by rw [List.length_cons] at hm; omega)
    unfold trainLoop
    cases bs with
    | nil =>
      simp only [List.length_cons, List.length_nil] at hm
      by_cases hb : b.length < 16
      · rw [if_pos ⟨by omega, hb⟩, h]
        simp [usedBatches, hb]
      · rw [if_neg (fun hc => hb hc.2), hf]
        dsimp only
        rw [h]
        simp [usedBatches, hb]
    | cons c bs =>
      simp only [List.length_cons] at hm
      rw [if_neg (fun hc => by omega), hf]
      dsimp only
      rw [h]
      have : usedBatches (b :: c :: bs) = b :: usedBatches (c :: bs) := by
        unfold usedBatches
        rw [List.getLast?_cons_cons]
        cases hl : (c :: bs).getLast? with
        | none => simp at hl
        | some d =>
          dsimp only
          split_ifs <;> rfl
      rw [this]
      rfl

theorem foldl_course (A : ArgSort ℚ) (S : Setup W Ex) (f : ℚ) (h0 : 0 ≤ f) (bs : List (List Ex)) (p : Progress W) :
    ∃ states, IsCourse S f bs states ∧ states.head? = some (p.net1, p.net2) ∧
      states.getLast? = some ((bs.foldl (trainBatch A S f) p).net1, (bs.foldl (trainBatch A S f) p).net2) ∧
      (bs.foldl (trainBatch A S f) p).total = p.total + bs.length ∧
      (bs.foldl (trainBatch A S f) p).correct1 = p.correct1 + accuracySum S Prod.fst bs states ∧
      (bs.foldl (trainBatch A S f) p).correct2 = p.correct2 + accuracySum S Prod.snd bs states := by
  induction bs generalizing p with
  | nil => exact ⟨[(p.net1, p.net2)], ⟨rfl, by simp⟩, rfl, rfl, rfl, by simp [accuracySum], by simp [accuracySum]⟩
  | cons b bs ih =>
    obtain ⟨states, ⟨h1, h2⟩, h3, h4, h5, h6, h7⟩ := ih (trainBatch A S f p b)
    refine ⟨(p.net1, p.net2) :: states, ⟨by simp [h1], ?_⟩, rfl, ?_, ?_, ?_, ?_⟩
    · intro i c s s' hc hs hs'
      cases i with
      | zero =>
        simp only [List.getElem?_cons_zero, Option.some.injEq] at hc hs
        rw [List.getElem?_cons_succ, ← List.head?_eq_getElem?, h3] at hs'
        subst hc hs
        refine ⟨_, _, selected_spec A S p.net2 f h0 b, selected_spec A S p.net1 f h0 b, ?_⟩
        rw [← Option.some.inj hs']
        rfl
      | succ i =>
        rw [List.getElem?_cons_succ] at hc hs hs'
        exact h2 i c s s' hc hs hs'
    · rw [List.foldl_cons, ← h4]
      cases states with
      | nil => simp at h3
      | cons s ss => rw [List.getLast?_cons_cons]
    · rw [List.foldl_cons, h5, List.length_cons]
      simp only [trainBatch]
      omega
    · rw [List.foldl_cons, h6]
      simp only [trainBatch, accuracySum, List.zip_cons_cons, List.map_cons, List.sum_cons]
      rw [add_assoc]
    · rw [List.foldl_cons, h7]
      simp only [trainBatch, accuracySum, List.zip_cons_cons, List.map_cons, List.sum_cons]
      rw [add_assoc]

/-- **C146.** In an epoch, each network learns from every batch once and in order, from the examples of the batch that are
easiest for the *other* network; only a last batch of fewer than 16 examples is left out. The accuracies returned are the means over these
batches of the accuracy before learning from the batch. -/
theorem C146_epoch (A : ArgSort ℚ) (S : Setup W Ex) (schedule : List ℚ) (epoch : ℕ) (loader : List (List Ex))
    (net1 net2 : Net W) (f : ℚ) (hf : schedule[epoch]? = some f) (h0 : 0 ≤ f) (hne : usedBatches loader ≠ []) :
    ∃ (states : List (W × W)) (s : W × W), IsCourse S f (usedBatches loader) states ∧
      states.head? = some (net1.state, net2.state) ∧ states.getLast? = some s ∧
      train A S schedule epoch loader net1 net2 = .ok ((⟨s.1, true⟩, ⟨s.2, true⟩),
        accuracySum S Prod.fst (usedBatches loader) states / (usedBatches loader).length,
        accuracySum S Prod.snd (usedBatches loader) states / (usedBatches loader).length) := by
  obtain ⟨states, h1, h2, h3, h4, h5, h6⟩ := foldl_course A S f h0 (usedBatches loader) ⟨net1.state, net2.state, 0, 0, 0⟩
  refine ⟨states, _, h1, h2, h3, ?_⟩
  unfold train
  rw [trainLoop_used A S schedule epoch loader.length 0 loader (by omega) f hf]
  dsimp only [bind, Except.bind]
  rw [if_neg (by rw [h4]; simpa using hne), h4, h5, h6]
  simp only [zero_add]
  rfl

/-- **C146.** The examples of a small last batch have no influence. -/
theorem C146_small_batch (A : ArgSort ℚ) (S : Setup W Ex) (schedule : List ℚ) (epoch : ℕ) (bs : List (List Ex))
    (b b' : List Ex) (hb : b.length < 16) (hb' : b'.length < 16) (net1 net2 : Net W) (f : ℚ) (hf : schedule[epoch]? = some f) :
    train A S schedule epoch (bs ++ [b]) net1 net2 = train A S schedule epoch (bs ++ [b']) net1 net2 := by
  unfold train
  rw [trainLoop_used A S schedule epoch _ 0 _ (by omega) f hf, trainLoop_used A S schedule epoch _ 0 _ (by omega) f hf]
  have : ∀ b : List Ex, b.length < 16 → usedBatches (bs ++ [b]) = bs := by
    intro b hb
    unfold usedBatches
    rw [List.getLast?_concat]
    dsimp only
    rw [if_pos hb, List.dropLast_concat]
  rw [this b hb, this b' hb']

/-- **C146.** Exchanging the networks exchanges the results. -/
theorem C146_symmetric (A : ArgSort ℚ) (S : Setup W Ex) (schedule : List ℚ) (epoch : ℕ) (loader : List (List Ex))
    (net1 net2 : Net W) :
    train A S schedule epoch loader net2 net1 =
      (train A S schedule epoch loader net1 net2).map (fun r => ((r.1.2, r.1.1), r.2.2, r.2.1)) := by
  have key : ∀ (m i : ℕ) (bs : List (List Ex)) (p : Progress W),
      trainLoop A S schedule epoch m i bs ⟨p.net2, p.net1, p.total, p.correct2, p.correct1⟩ =
        (trainLoop A S schedule epoch m i bs p).map (fun p => ⟨p.net2, p.net1, p.total, p.correct2, p.correct1⟩) := by
    intro m i bs
    induction bs generalizing i with
    | nil => intro p; rfl
    | cons b bs ih =>
      intro p
      unfold trainLoop
      split_ifs
      · exact ih _ _
      · cases schedule[epoch]? with
        | none => rfl
        | some f => exact ih _ (trainBatch A S f p b)
  unfold train
  rw [key loader.length 0 loader ⟨net1.state, net2.state, 0, 0, 0⟩]
  cases trainLoop A S schedule epoch loader.length 0 loader ⟨net1.state, net2.state, 0, 0, 0⟩ with
  | error e => rfl
  | ok p =>
    dsimp only [Except.map, bind, Except.bind]
    split_ifs <;> rfl

/-- **C146 fails for small data.** If the only batch has fewer than 16 examples, the epoch raises. -/
theorem C146_not_small_data (A : ArgSort ℚ) (S : Setup W Ex) (schedule : List ℚ) (epoch : ℕ) (batch : List Ex)
    (hb : batch.length < 16) (net1 net2 : Net W) :
    train A S schedule epoch [batch] net1 net2 = .error "ZeroDivisionError" := by
  unfold train trainLoop
  rw [List.length_singleton, if_pos ⟨rfl, hb⟩]
  rfl

/-- A setting in which an example is its own accuracy and no network ever changes. -/
def fixedSetup : Setup Unit Bool where
  loss := fun _ x => if x then 0 else 1
  accuracy := fun _ b => 100 * (b.countP id : ℚ) / b.length
  step := fun w _ => w

/-- **C146 fails for unequal batches.** The accuracy returned is not the share of examples classified correctly: 48 right
examples in one batch and 16 wrong ones in the next give 50 percent, not 75. -/
theorem C146_not_share (A : ArgSort ℚ) :
    train A fixedSetup [1 / 5] 0 [List.replicate 48 true, List.replicate 16 false] ⟨(), false⟩ ⟨(), false⟩ =
      .ok ((⟨(), true⟩, ⟨(), true⟩), 50, 50) ∧
    fixedSetup.accuracy () (List.replicate 48 true ++ List.replicate 16 false) = 75 := by
  have h1 : fixedSetup.accuracy () (List.replicate 48 true) = 100 := by
    simp only [fixedSetup]; rw [show (List.replicate 48 true).countP id = 48 from by decide, List.length_replicate]; norm_num
  have h2 : fixedSetup.accuracy () (List.replicate 16 false) = 0 := by
    simp only [fixedSetup]; rw [show (List.replicate 16 false).countP id = 0 from by decide, List.length_replicate]; norm_num
  constructor
  · unfold train
    rw [trainLoop_used A fixedSetup [1 / 5] 0 _ 0 _ (by rw [Nat.zero_add]) (1 / 5) rfl]
    have : usedBatches [List.replicate 48 true, List.replicate 16 false] = [List.replicate 48 true, List.replicate 16 false] := by
      decide
    rw [this]
    dsimp only [bind, Except.bind, List.foldl, trainBatch]
    rw [if_neg (by norm_num), h1, h2]
    norm_num
    rfl
  · simp only [fixedSetup]
    rw [show (List.replicate 48 true ++ List.replicate 16 false).countP id = 48 from by decide,
      show (List.replicate 48 true ++ List.replicate 16 false).length = 64 from by decide]
    norm_num

theorem countCorrect_eq (right : W → Ex → Bool) (w : W) (loader : List (List Ex)) :
    countCorrect right w loader = (loader.flatten.countP (right w), loader.flatten.length) := by
  have : ∀ (acc : ℕ × ℕ), loader.foldl (fun acc b => (acc.1 + b.countP (right w), acc.2 + b.length)) acc =
      (acc.1 + loader.flatten.countP (right w), acc.2 + loader.flatten.length) := by
    induction loader with
    | nil => intro acc; simp
    | cons b bs ih =>
      intro acc
      rw [List.foldl_cons, ih, List.flatten_cons, List.countP_append, List.length_append]
      simp only [Nat.add_assoc]
  unfold countCorrect
  rw [this]
  simp

/-- **C146.** The evaluation returns the percentage of the test examples that each network classifies correctly, however they
are divided into batches, and changes nothing about the networks but their mode. -/
theorem C146_evaluate (right : W → Ex → Bool) (loader : List (List Ex)) (net1 net2 : Net W) (hne : loader.flatten ≠ []) :
    evaluate right loader net1 net2 = .ok ((⟨net1.state, false⟩, ⟨net2.state, false⟩),
      100 * (loader.flatten.countP (right net1.state) : ℚ) / loader.flatten.length,
      100 * (loader.flatten.countP (right net2.state) : ℚ) / loader.flatten.length) := by
  unfold evaluate
  rw [countCorrect_eq, countCorrect_eq]
  dsimp only
  rw [if_neg (by rw [or_self, List.length_eq_zero_iff]; exact hne)]

/-- Three of four test examples are right. -/
example : evaluate (fun (_ : Unit) (x : Bool) => x) [[true, false], [], [true, true]] ⟨(), true⟩ ⟨(), true⟩ =
    .ok ((⟨(), false⟩, ⟨(), false⟩), 75, 75) := by
  rw [C146_evaluate _ _ _ _ (by simp)]
  norm_num [List.countP_cons]

/-- A batch of 20 and a batch of 3: the second one is left out, and the epoch does not raise. -/
example : usedBatches [List.replicate 20 (1 : ℕ), [2, 3, 4]] = [List.replicate 20 1] ∧
    usedBatches [[2, 3, 4], List.replicate 20 (1 : ℕ)] = [[2, 3, 4], List.replicate 20 1] := by decide

end Cleanlab.Props
