import Verif.Model.Serialize

/-!
# C54, C81: saving and loading a lab
-/

namespace Cleanlab.Props

open Cleanlab.Serialize

variable {R : Type}

/-- A lab as the constructor makes it: its hash is that of its data set, and it has one label per row unless it has no
labels. -/
structure Lab.Built (lab : Lab R) : Prop where
  hash : lab.dataHash = lab.data.hash
  labels : lab.labels = [] ∨ lab.labels.length = lab.data.rows

theorem unpickle_save (lab : Lab R) (force : Bool) (e e' : Entry R) (h : save lab force e = (e', .ok ())) :
    ∃ d, e' = .dir d ∧ d.pkl = some (.complete lab) ∧ d.issues = some (.complete lab) ∧
      d.summary = some (.complete lab) ∧ d.data = some (.complete lab) := by
  unfold save saveUpTo at h
  cases e with
  | absent => exact ⟨_, (Prod.mk.inj h).1.symm, rfl, rfl, rfl, rfl⟩
  | file => cases force <;> exact absurd (Prod.mk.inj h).2 (by simp)
  | dir d =>
    cases force with
    | false => exact absurd (Prod.mk.inj h).2 (by simp)
    | true => exact ⟨_, (Prod.mk.inj h).1.symm, rfl, rfl, rfl, rfl⟩

/-- **C54 (holds).** After a save that succeeded, whatever was at the path before, loading without data gives the saved
lab, and so does loading a lab with labels with its data set. -/
theorem C54_roundtrip_partial (read : ℤ → Dataset) (lab : Lab R) (hb : Lab.Built lab) (force : Bool) (e e' : Entry R)
    (h : save lab force e = (e', .ok ())) :
    load read e' none = .ok lab ∧
    (lab.labels ≠ [] → load read e' (some (.dataset lab.data)) = .ok lab) := by
  obtain ⟨d, rfl, hp, _⟩ := unpickle_save lab force e e' h
  have hu : unpickle (Entry.dir d) = .ok lab := by
    unfold unpickle
    simp only [hp]
  constructor
  · unfold load
    rw [hu]
    rfl
  · intro hl
    have hn : lab.labels.length = lab.data.rows := hb.labels.resolve_left hl
    unfold load
    rw [hu]
    show (if lab.data.hash ≠ lab.dataHash then _ else if lab.data.rows ≠ lab.labels.length then _ else _) = _
    rw [if_neg (by rw [hb.hash]; exact fun h => h rfl), if_neg (by rw [hn]; exact fun h => h rfl)]
    show Except.ok { lab with dataHash := lab.data.hash, data := lab.data } = _
    rw [← hb.hash]

/-- **C54 (holds).** The save succeeds exactly if nothing is at the path or a folder is and `force` was given; otherwise
what is at the path is left alone. -/
theorem C54_no_overwrite (lab : Lab R) (force : Bool) (e : Entry R) :
    ((∃ e', save lab force e = (e', .ok ())) ↔ e = .absent ∨ (force = true ∧ ∃ d, e = .dir d)) ∧
    (force = false → e ≠ .absent → save lab force e = (e, .error "FileExistsError")) := by
  constructor
  · cases e with
    | absent => exact ⟨fun _ => .inl rfl, fun _ => ⟨_, rfl⟩⟩
    | file =>
      constructor
      · rintro ⟨e', h⟩
        cases force <;> exact absurd (Prod.mk.inj h).2 (by simp)
      · rintro (h | ⟨_, d, h⟩) <;> cases h
    | dir d =>
      cases force with
      | false =>
        constructor
        · rintro ⟨e', h⟩
          exact absurd (Prod.mk.inj h).2 (by simp)
        · rintro (h | ⟨h, _⟩) <;> cases h
      | true => exact ⟨fun _ => .inr ⟨rfl, d, rfl⟩, fun _ => ⟨_, rfl⟩⟩
  · intro hf he
    subst hf
    cases e with
    | absent => exact absurd rfl he
    | file => rfl
    | dir d => rfl

/-- **C54 (holds).** Data with another hash is refused, and so is data whose length is not the number of labels. -/
theorem C54_refuses_other_data (read : ℤ → Dataset) (lab : Lab R) (force : Bool) (e e' : Entry R)
    (h : save lab force e = (e', .ok ())) (arg : DataArg)
    (ha : arg.hash ≠ some lab.dataHash ∨ arg.len ≠ lab.labels.length) :
    ∃ msg, load read e' (some arg) = .error msg := by
  obtain ⟨d, rfl, hp, _⟩ := unpickle_save lab force e e' h
  have hu : unpickle (Entry.dir d) = .ok lab := by
    unfold unpickle
    simp only [hp]
  unfold load
  rw [hu]
  cases hh : arg.hash with
  | none =>
    refine ⟨"TypeError", ?_⟩
    show (match arg.hash with | none => _ | some h => _) = _
    rw [hh]
  | some x =>
    show ∃ msg, (match arg.hash with | none => _ | some h => _) = Except.error msg
    rw [hh]
    dsimp only
    by_cases hx : x ≠ lab.dataHash
    · exact ⟨_, if_pos hx⟩
    · rw [if_neg hx]
      have : arg.len ≠ lab.labels.length := by
        rcases ha with ha | ha
        · exact absurd (by rw [hh]; exact congrArg some (not_not.mp hx)) ha
        · exact ha
      exact ⟨_, if_pos this⟩

/-- **C54 (fails).** No lab without labels, over a data set with at least one row, can be loaded with its own data set. -/
theorem C54_not_unlabeled (read : ℤ → Dataset) (lab : Lab R) (hl : lab.labels = []) (hr : lab.data.rows ≠ 0)
    (force : Bool) (e e' : Entry R) (h : save lab force e = (e', .ok ())) :
    ∃ msg, load read e' (some (.dataset lab.data)) = .error msg :=
  C54_refuses_other_data read lab force e e' h _ (.inr (by rw [hl]; exact hr))

/-- **C54 (fails).** The data frame, dictionary or list given to the constructor is refused by `load`. -/
theorem C54_not_constructor_data (read : ℤ → Dataset) (lab : Lab R) (force : Bool) (e e' : Entry R)
    (h : save lab force e = (e', .ok ())) (arg : DataArg) (ha : arg.hash = none) :
    load read e' (some arg) = .error "TypeError" := by
  obtain ⟨d, rfl, hp, _⟩ := unpickle_save lab force e e' h
  unfold load unpickle
  simp only [hp]
  show (match arg.hash with | none => _ | some h => _) = _
  rw [ha]

/-- The labs of the examples: five rows, with and without labels. -/
def labeledLab : Lab ℕ := ⟨17, ⟨17, 5⟩, [0, 1, 1, 0, 2], 3⟩

def unlabeledLab : Lab ℕ := ⟨17, ⟨17, 5⟩, [], 3⟩

example : Lab.Built labeledLab ∧ Lab.Built unlabeledLab := ⟨⟨rfl, .inr rfl⟩, ⟨rfl, .inl rfl⟩⟩

example : ∃ e', save labeledLab false .absent = (e', .ok ()) ∧
    load (fun _ => ⟨0, 0⟩) e' (some (.dataset ⟨17, 5⟩)) = .ok labeledLab := ⟨_, rfl, rfl⟩

example : ∃ e', save unlabeledLab false .absent = (e', .ok ()) ∧
    load (fun _ => ⟨0, 0⟩) e' (some (.dataset ⟨17, 5⟩)) = .error "ValueError: length" := ⟨_, rfl, rfl⟩

example : (DataArg.frame 5).hash = none ∧ (DataArg.dict 2).hash = none ∧ (DataArg.list 5).hash = none := ⟨rfl, rfl, rfl⟩

/-! ## Interrupted saves -/

theorem afterWrites_pkl (lab : Lab R) (d : Dir R) (k : ℕ) :
    (afterWrites lab k d).pkl = (if k = 0 then d.pkl else if k = 1 then some .incomplete else some (.complete lab)) := by
  rcases k with _ | _ | _ | _ | _ | _ | _ | _ | k <;> try rfl
  show ((List.take (k + 8) (writes lab)).foldl (fun d w => w d) d).pkl = _
  rw [List.take_of_length_le (by unfold writes; simp)]
  rfl

/-- **C81 (holds).** Wherever a save is interrupted, a later `load` without data gives the lab that was there before, or the
lab being saved, or raises; it never gives anything else. -/
theorem C81_no_mixture_partial (read : ℤ → Dataset) (lab : Lab R) (force : Bool) (k : ℕ) (e : Entry R) :
    load read (saveUpTo lab force k e).1 none = load read e none ∨
    load read (saveUpTo lab force k e).1 none = .ok lab ∨
    ∃ msg, load read (saveUpTo lab force k e).1 none = .error msg := by
  have hdir : ∀ d : Dir R, load read (.dir (afterWrites lab k d)) none = load read (.dir d) none ∨
      load read (.dir (afterWrites lab k d)) none = .ok lab ∨
      ∃ msg, load read (.dir (afterWrites lab k d)) none = .error msg := by
    intro d
    have hp := afterWrites_pkl lab d k
    by_cases h0 : k = 0
    · left
      subst h0
      rfl
    · rw [if_neg h0] at hp
      by_cases h1 : k = 1
      · rw [if_pos h1] at hp
        right; right
        refine ⟨"EOFError", ?_⟩
        unfold load unpickle
        simp only [hp]
        rfl
      · rw [if_neg h1] at hp
        right; left
        unfold load unpickle
        simp only [hp]
        rfl
  cases e with
  | absent =>
    rcases hdir emptyDir with h | h | h
    · right; right
      exact ⟨"FileNotFoundError", h⟩
    · exact .inr (.inl h)
    · exact .inr (.inr h)
  | file => left; cases force <;> rfl
  | dir d =>
    cases force with
    | false => left; rfl
    | true => exact hdir d

/-- **C81 (fails).** Overwriting is not atomic: interrupted while the pickle file is written, a save over an existing lab
leaves neither the old nor the new lab. -/
theorem C81_not_atomic (read : ℤ → Dataset) (old lab : Lab R) (e : Entry R) (h : load read e none = .ok old) :
    load read (saveUpTo lab true 1 e).1 none = .error "EOFError" := by
  cases e with
  | absent => exact absurd h (by simp [load, unpickle, bind, Except.bind])
  | file => exact absurd h (by simp [load, unpickle, bind, Except.bind])
  | dir d => rfl

/-- **C81 (fails).** After an interrupted save to a fresh path, repeating the same save is refused. -/
theorem C81_not_retry (lab : Lab R) (k : ℕ) :
    (save lab false (saveUpTo lab false k .absent).1).2 = .error "FileExistsError" := rfl

example : load (fun _ => ⟨0, 0⟩) (save unlabeledLab true (save labeledLab false .absent).1).1 none = .ok unlabeledLab ∧
    load (fun _ => ⟨0, 0⟩) (saveUpTo unlabeledLab true 1 (save labeledLab false .absent).1).1 none =
      .error "EOFError" := ⟨rfl, rfl⟩

end Cleanlab.Props
