import Verif.Model.TokenText

/-!
# C94, C95: text helpers of token classification
-/

namespace Cleanlab.Props

open Np Cleanlab.TokenText

/-! ## The scan -/

/-- What the left-to-right scan does, piece by piece. -/
inductive Scanned (m : Option Char → Text → Option (ℕ × Text)) : Option Char → List Piece → Prop where
  | nil {prev} : m prev [] = none → Scanned m prev []
  | done {prev n} : m prev [] = some (0, n) → Scanned m prev [.sub [] n]
  | keep {prev c ps} : m prev (c :: oldText ps) = none → Scanned m (some c) ps → Scanned m prev (.keep c :: ps)
  | sub {prev o n ps} : o ≠ [] → m prev (o ++ oldText ps) = some (o.length, n) → Scanned m o.getLast? ps →
      Scanned m prev (.sub o n :: ps)
  | empty {prev c n ps} : m prev (c :: oldText ps) = some (0, n) → Scanned m (some c) ps →
      Scanned m prev (.sub [] n :: .keep c :: ps)

theorem oldText_cons (p : Piece) (ps : List Piece) : oldText (p :: ps) = p.old ++ oldText ps := by
  simp [oldText]

theorem oldText_append (ps qs : List Piece) : oldText (ps ++ qs) = oldText ps ++ oldText qs := by
  simp [oldText]

theorem newText_cons (p : Piece) (ps : List Piece) : newText (p :: ps) = p.new ++ newText ps := by
  simp [newText]

theorem scan_skip (m : Option Char → Text → Option (ℕ × Text)) : ∀ (skip : ℕ) (prev : Option Char) (text : Text),
    skip ≤ text.length → scan m skip prev text = scan m 0 ((text.take skip).getLast?.or prev) (text.drop skip)
  | 0, prev, text, _ => by simp
  | skip + 1, prev, [], h => by simp at h
  | skip + 1, prev, c :: r, h => by
    have h' : skip ≤ r.length := by simpa using h
    rw [scan, scan_skip m skip (some c) r h']
    congr 1
    simp only [List.take_succ_cons, List.getLast?_cons]
    cases (r.take skip).getLast? <;> simp

theorem scan_scanned (m : Option Char → Text → Option (ℕ × Text))
    (hm : ∀ prev rest l n, m prev rest = some (l, n) → l ≤ rest.length) (k : ℕ) :
    ∀ (prev : Option Char) (text : Text), text.length ≤ k →
      Scanned m prev (scan m 0 prev text) ∧ oldText (scan m 0 prev text) = text := by
  induction k with
  | zero =>
    intro prev text hk
    obtain rfl : text = [] := List.length_eq_zero_iff.mp (Nat.le_zero.mp hk)
    rw [scan]
    cases h : m prev [] with
    | none => exact ⟨.nil h, rfl⟩
    | some r =>
      obtain ⟨l, n⟩ := r
      have hl := hm _ _ _ _ h
      obtain rfl : l = 0 := by simpa using hl
      exact ⟨.done h, rfl⟩
  | succ k ih =>
    intro prev text hk
    cases text with
    | nil => exact ih prev [] (Nat.zero_le _)
    | cons c r =>
      have hr : r.length ≤ k := by simpa using hk
      rw [scan]
      cases h : m prev (c :: r) with
      | none =>
        obtain ⟨h1, h2⟩ := ih (some c) r hr
        refine ⟨.keep (by rw [h2]; exact h) h1, ?_⟩
        rw [oldText_cons, h2]; rfl
      | some q =>
        obtain ⟨l, n⟩ := q
        have hl := hm _ _ _ _ h
        cases l with
        | zero =>
          obtain ⟨h1, h2⟩ := ih (some c) r hr
          refine ⟨.empty (by rw [h2]; exact h) h1, ?_⟩
          rw [oldText_cons, oldText_cons, h2]; rfl
        | succ l =>
          have hl' : l ≤ r.length := by simpa using hl
          dsimp only
          rw [scan_skip m l (some c) r hl']
          have hlen : (r.drop l).length ≤ k := by simp; omega
          obtain ⟨h1, h2⟩ := ih (((r.take l).getLast?).or (some c)) (r.drop l) hlen
          have hlast : ((c :: r).take (l + 1)).getLast? = ((r.take l).getLast?).or (some c) := by
            simp only [List.take_succ_cons, List.getLast?_cons]
            cases (r.take l).getLast? <;> simp
          have htext : (c :: r).take (l + 1) ++ r.drop l = c :: r := by simp
          refine ⟨.sub (by simp) ?_ (by rw [hlast]; exact h1), ?_⟩
          · rw [h2, htext, h]
            congr 2
            simp; omega
          · rw [oldText_cons, h2]; exact htext

/-- Every substitution is a match at its place. -/
theorem Scanned.of_sub {m : Option Char → Text → Option (ℕ × Text)} {prev : Option Char} {ps : List Piece}
    (h : Scanned m prev ps) : ∀ (A : List Piece) (o n : Text) (B : List Piece), ps = A ++ .sub o n :: B →
      m ((oldText A).getLast?.or prev) (o ++ oldText B) = some (o.length, n) := by
  induction h with
  | nil _ => intro A o n B hp; simp at hp
  | @done prev n h =>
    intro A o n' B hp
    cases A with
    | nil =>
      simp only [List.nil_append, List.cons.injEq, Piece.sub.injEq] at hp
      obtain ⟨⟨rfl, rfl⟩, rfl⟩ := hp
      simpa [oldText] using h
    | cons a A => simp at hp
  | @keep prev c ps h _ ih =>
    intro A o n' B hp
    cases A with
    | nil => simp at hp
    | cons a A =>
      simp only [List.cons_append, List.cons.injEq] at hp
      obtain ⟨rfl, rfl⟩ := hp
      rw [← ih A o n' B rfl, oldText_cons]
      congr 1
      simp only [Piece.old, List.cons_append, List.nil_append, List.getLast?_cons]
      cases (oldText A).getLast? <;> simp
  | @sub prev o' n ps ho h _ ih =>
    intro A o n' B hp
    cases A with
    | nil =>
      simp only [List.nil_append, List.cons.injEq, Piece.sub.injEq] at hp
      obtain ⟨⟨rfl, rfl⟩, rfl⟩ := hp
      simpa [oldText] using h
    | cons a A =>
      simp only [List.cons_append, List.cons.injEq] at hp
      obtain ⟨rfl, rfl⟩ := hp
      rw [← ih A o n' B rfl, oldText_cons]
      congr 1
      simp only [Piece.old, List.getLast?_append]
      cases hA : (oldText A).getLast? with
      | some x => simp
      | none =>
        have : o'.getLast? = some (o'.getLast ho) := List.getLast?_eq_some_getLast ho
        rw [this]; simp
  | @empty prev c n ps h _ ih =>
    intro A o n' B hp
    cases A with
    | nil =>
      simp only [List.nil_append, List.cons.injEq, Piece.sub.injEq] at hp
      obtain ⟨⟨rfl, rfl⟩, rfl⟩ := hp
      simpa [oldText, Piece.old] using h
    | cons a A =>
      simp only [List.cons_append, List.cons.injEq] at hp
      obtain ⟨rfl, hp⟩ := hp
      cases A with
      | nil => simp at hp
      | cons a A =>
        simp only [List.cons_append, List.cons.injEq] at hp
        obtain ⟨rfl, rfl⟩ := hp
        rw [← ih A o n' B rfl, oldText_cons, oldText_cons]
        congr 1
        simp only [Piece.old, List.cons_append, List.nil_append, List.getLast?_cons]
        cases (oldText A).getLast? <;> simp

/-- Where no match is empty, a kept character starts no match. -/
theorem Scanned.of_keep {m : Option Char → Text → Option (ℕ × Text)} {prev : Option Char} {ps : List Piece}
    (hpos : ∀ prev rest n, m prev rest ≠ some (0, n))
    (h : Scanned m prev ps) : ∀ (A : List Piece) (c : Char) (B : List Piece), ps = A ++ .keep c :: B →
      m ((oldText A).getLast?.or prev) (c :: oldText B) = none := by
  induction h with
  | nil _ => intro A c B hp; simp at hp
  | done h => exact absurd h (hpos _ _ _)
  | empty h => exact absurd h (hpos _ _ _)
  | @keep prev c ps h _ ih =>
    intro A c' B hp
    cases A with
    | nil =>
      simp only [List.nil_append, List.cons.injEq, Piece.keep.injEq] at hp
      obtain ⟨rfl, rfl⟩ := hp
      simpa [oldText] using h
    | cons a A =>
      simp only [List.cons_append, List.cons.injEq] at hp
      obtain ⟨rfl, rfl⟩ := hp
      rw [← ih A c' B rfl, oldText_cons]
      congr 1
      simp only [Piece.old, List.cons_append, List.nil_append, List.getLast?_cons]
      cases (oldText A).getLast? <;> simp
  | @sub prev o' n ps ho h _ ih =>
    intro A c B hp
    cases A with
    | nil => simp at hp
    | cons a A =>
      simp only [List.cons_append, List.cons.injEq] at hp
      obtain ⟨rfl, rfl⟩ := hp
      rw [← ih A c B rfl, oldText_cons]
      congr 1
      simp only [Piece.old, List.getLast?_append]
      cases hA : (oldText A).getLast? with
      | some x => simp
      | none =>
        have : o'.getLast? = some (o'.getLast ho) := List.getLast?_eq_some_getLast ho
        rw [this]; simp

/-! ## Sentences -/

/-- The second text arises from the first by leaving out some white space. -/
inductive Squeezed (ws : Char → Bool) : Text → Text → Prop where
  | nil : Squeezed ws [] []
  | keep {s t} (c : Char) : Squeezed ws s t → Squeezed ws (c :: s) (c :: t)
  | drop {s t} (c : Char) : ws c = true → Squeezed ws s t → Squeezed ws (c :: s) t

theorem Squeezed.refl (ws : Char → Bool) : ∀ s : Text, Squeezed ws s s
  | [] => .nil
  | c :: s => .keep c (Squeezed.refl ws s)

theorem Squeezed.append {ws : Char → Bool} {s t s' t' : Text} (h : Squeezed ws s t) (h' : Squeezed ws s' t') :
    Squeezed ws (s ++ s') (t ++ t') := by
  induction h with
  | nil => exact h'
  | keep c _ ih => exact .keep c ih
  | drop c hc _ ih => exact .drop c hc ih

theorem Squeezed.filter {ws : Char → Bool} {s t : Text} (h : Squeezed ws s t) :
    t.filter (fun c => !ws c) = s.filter (fun c => !ws c) := by
  induction h with
  | nil => rfl
  | keep c _ ih => simp only [List.filter_cons, ih]
  | drop c hc _ ih => simp [hc, ih]

theorem Squeezed.infix {ws : Char → Bool} {s t : Text} (h : Squeezed ws s t) (word : Text)
    (hw : ∀ c ∈ word, ws c = false) (hi : word <:+: s) : word <:+: t := by
  obtain ⟨a, b, rfl⟩ := hi
  have key : ∀ (word b t : Text), (∀ c ∈ word, ws c = false) → Squeezed ws (word ++ b) t → word <+: t := by
    intro word
    induction word with
    | nil => intro b t _ _; exact List.nil_prefix
    | cons c word ih =>
      intro b t hw h
      cases h with
      | keep _ h => exact List.cons_prefix_cons.mpr ⟨rfl, ih b _ (fun x hx => hw x (List.mem_cons_of_mem _ hx)) h⟩
      | drop _ hc _ => rw [hw c List.mem_cons_self] at hc; cases hc
  induction a generalizing t with
  | nil => exact (key word b t hw (by simpa using h)).isInfix
  | cons c a ih =>
    cases h with
    | keep _ h => exact (ih h).trans (List.infix_cons List.infix_rfl)
    | drop _ _ h => exact ih h

theorem Squeezed.trans {ws : Char → Bool} {s t u : Text} (h : Squeezed ws s t) (h' : Squeezed ws t u) :
    Squeezed ws s u := by
  induction h generalizing u with
  | nil => exact h'
  | keep c _ ih =>
    cases h' with
    | keep _ h' => exact .keep c (ih h')
    | drop _ hc h' => exact .drop c hc (ih h')
  | drop c hc _ ih => exact .drop c hc (ih h')

theorem Squeezed.reverse {ws : Char → Bool} {s t : Text} (h : Squeezed ws s t) : Squeezed ws s.reverse t.reverse := by
  induction h with
  | nil => exact .nil
  | keep c _ ih => simpa using ih.append (Squeezed.refl ws [c])
  | drop c hc _ ih => simpa using ih.append (Squeezed.drop c hc .nil)

theorem squeezed_dropWhile (ws : Char → Bool) : ∀ s : Text, Squeezed ws s (s.dropWhile ws)
  | [] => .nil
  | c :: s => by
    rw [List.dropWhile_cons]
    split
    · rename_i h; exact .drop c h (squeezed_dropWhile ws s)
    · exact Squeezed.refl ws _

theorem squeezed_strip (ws : Char → Bool) (s : Text) : Squeezed ws s (strip ws s) := by
  refine (squeezed_dropWhile ws s).trans ?_
  have := (squeezed_dropWhile ws (s.dropWhile ws).reverse).reverse
  simpa [strip] using this

/-- What `str.replace` does, for a text that is not empty. -/
theorem replaceAll_spec (old new text : Text) :
    Scanned (fun _ rest => if old.isPrefixOf rest then some (old.length, new) else none) none (replaceAll old new text) ∧
      oldText (replaceAll old new text) = text ∧
      ∀ o n, .sub o n ∈ replaceAll old new text → o = old ∧ n = new := by
  have hs := scan_scanned (fun _ rest => if old.isPrefixOf rest then some (old.length, new) else none)
    (by
      intro prev rest l n h
      by_cases hp : old.isPrefixOf rest
      · rw [if_pos hp] at h
        simp only [Option.some.injEq, Prod.mk.injEq] at h
        rw [← h.1]
        exact (List.isPrefixOf_iff_prefix.mp hp).length_le
      · rw [if_neg hp] at h; cases h) text.length none text le_rfl
  refine ⟨hs.1, hs.2, ?_⟩
  intro o n hmem
  obtain ⟨A, B, hAB⟩ := List.append_of_mem hmem
  have := hs.1.of_sub A o n B hAB
  by_cases hp : old.isPrefixOf (o ++ oldText B)
  · rw [if_pos hp] at this
    simp only [Option.some.injEq, Prod.mk.injEq] at this
    refine ⟨?_, this.2.symm⟩
    have h1 := List.isPrefixOf_iff_prefix.mp hp
    exact
      (List.IsPrefix.eq_of_length (List.prefix_of_prefix_length_le h1 (List.prefix_append o _) (by omega)) this.1).symm
  · rw [if_neg hp] at this; cases this

theorem squeezed_pieces (ws : Char → Bool) (ps : List Piece)
    (h : ∀ o n, .sub o n ∈ ps → Squeezed ws o n) : Squeezed ws (oldText ps) (newText ps) := by
  induction ps with
  | nil => exact .nil
  | cons p ps ih =>
    rw [oldText_cons, newText_cons]
    refine Squeezed.append ?_ (ih (fun o n hm => h o n (List.mem_cons_of_mem _ hm)))
    cases p with
    | keep c => exact Squeezed.refl ws _
    | sub o n => exact h o n List.mem_cons_self

/-- `get_sentence` only leaves out white space. -/
theorem getSentence_squeezed (ws : Char → Bool) (h : ws ' ' = true) (words : List Text) :
    Squeezed ws (words.flatMap (fun word =>
      if ¬(word <:+: punctuation) ∨ word = ['-'] ∨ word = ['('] then ' ' :: word else word)) (getSentence ws words) := by
  unfold getSentence
  dsimp only
  set s := words.flatMap (fun word =>
      if ¬(word <:+: punctuation) ∨ word = ['-'] ∨ word = ['('] then ' ' :: word else word)
  have h1 := replaceAll_spec [' ', '\''] ['\''] s
  have h2 := replaceAll_spec ['(', ' '] ['('] (newText (replaceAll [' ', '\''] ['\''] s))
  have s1 := squeezed_pieces ws _ (fun o n hm => by
    obtain ⟨rfl, rfl⟩ := h1.2.2 o n hm
    exact .drop _ h (Squeezed.refl ws _))
  have s2 := squeezed_pieces ws _ (fun o n hm => by
    obtain ⟨rfl, rfl⟩ := h2.2.2 o n hm
    exact .keep _ (.drop _ h .nil))
  rw [h1.2.1] at s1
  rw [h2.2.1] at s2
  exact (s1.trans s2).trans (squeezed_strip ws _)

/-- **C94.** The sentence that is shown has the characters of the tokens, in order; only white space differs. -/
theorem C94_characters (ws : Char → Bool) (h : ws ' ' = true) (words : List Text) :
    (getSentence ws words).filter (fun c => !ws c) = words.flatten.filter (fun c => !ws c) := by
  rw [(getSentence_squeezed ws h words).filter]
  induction words with
  | nil => rfl
  | cons word words ih =>
    rw [List.flatMap_cons, List.flatten_cons, List.filter_append, List.filter_append, ih]
    congr 1
    split
    · simp [h]
    · rfl

/-- **C94.** Every token without white space is part of the sentence. -/
theorem C94_tokens (ws : Char → Bool) (h : ws ' ' = true) (words : List Text) (word : Text) (hw : word ∈ words)
    (hns : ∀ c ∈ word, ws c = false) : word <:+: getSentence ws words := by
  refine (getSentence_squeezed ws h words).infix word hns ?_
  obtain ⟨A, B, rfl⟩ := List.append_of_mem hw
  rw [List.flatMap_append, List.flatMap_cons]
  refine List.IsInfix.trans ?_ (List.suffix_append _ _).isInfix
  refine List.IsInfix.trans ?_ (List.prefix_append _ _).isInfix
  split
  · exact List.infix_cons List.infix_rfl
  · exact List.infix_rfl

example : getSentence Char.isWhitespace (["Some", "reason", "(", "it", "'s", "late", ")", "."].map String.toList) =
    "Some reason (it's late).".toList := by decide +kernel

/-! ## Colours -/

/-- There is a word boundary between two texts: exactly one of the neighbouring characters is a word character. -/
def IsBoundary (w : Char → Bool) (a b : Text) : Prop :=
  (∃ c ∈ a.getLast?, w c = true) ↔ ¬∃ c ∈ b.head?, w c = true

/-- Between `a` and `b` the word stands on its own. -/
def Standalone (w : Char → Bool) (word a b : Text) : Prop :=
  IsBoundary w a (word ++ b) ∧ IsBoundary w (a ++ word) b

theorem boundary_iff (w : Char → Bool) (a b : Text) :
    boundary w a.getLast? b.head? = true ↔ IsBoundary w a b := by
  unfold boundary IsBoundary
  cases a.getLast? with
  | none =>
    cases b.head? with
    | none => simp
    | some y => cases hy : w y <;> simp [hy]
  | some x =>
    cases b.head? with
    | none => cases hx : w x <;> simp [hx]
    | some y => cases hx : w x <;> cases hy : w y <;> simp [hx, hy]

theorem matchesWord_iff (w : Char → Bool) (word a rest : Text) :
    matchesWord w word a.getLast? rest = true ↔ ∃ b, rest = word ++ b ∧ Standalone w word a b := by
  unfold matchesWord
  rw [Bool.and_eq_true, Bool.and_eq_true, List.isPrefixOf_iff_prefix]
  have hlast : word.getLast?.or a.getLast? = (a ++ word).getLast? := by rw [List.getLast?_append]
  constructor
  · rintro ⟨⟨⟨b, rfl⟩, h1⟩, h2⟩
    refine ⟨b, rfl, (boundary_iff w a _).mp h1, ?_⟩
    rw [hlast, List.drop_left, boundary_iff] at h2
    exact h2
  · rintro ⟨b, rfl, h1, h2⟩
    refine ⟨⟨List.prefix_append word b, (boundary_iff w a _).mpr h1⟩, ?_⟩
    rw [hlast, List.drop_left, boundary_iff]
    exact h2

/-- A template without backslash stands for itself. -/
theorem template_eq (word : Text) : ∀ t : Text, '\\' ∉ t → template word t = .ok t
  | [], _ => rfl
  | c :: r, h => by
    have hc : c ≠ '\\' := fun e => h (by rw [e]; exact List.mem_cons_self)
    have hr := template_eq word r (fun e => h (List.mem_cons_of_mem _ e))
    rw [template]
    · rw [hr]; rfl
    all_goals (intros; simp_all)

theorem all_keep : ∀ (ps : List Piece), (∀ p ∈ ps, p.isSub = false) → ps = (oldText ps).map Piece.keep
  | [], _ => rfl
  | p :: ps, h => by
    have hps := all_keep ps (fun q hq => h q (List.mem_cons_of_mem _ hq))
    cases p with
    | sub o n => have := h _ List.mem_cons_self; simp [Piece.isSub] at this
    | keep c =>
      rw [oldText_cons, List.map_append, ← hps]
      rfl

theorem oldText_keep (t : Text) : oldText (t.map Piece.keep) = t := by
  induction t with
  | nil => rfl
  | cons c t ih => rw [List.map_cons, oldText_cons, ih]; rfl

/-- **C94.** A token without backslash is coloured: the result is the sentence with some occurrences of the token
replaced by the coloured token. If the token stands on its own somewhere, then exactly such occurrences are coloured,
and no further one is left over; otherwise all occurrences are coloured. A token that occurs is coloured at least once.
Missing: tokens with a backslash. -/
theorem C94_colour_partial (w : Char → Bool) (sentence word : Text) (hb : '\\' ∉ word) :
    ∃ ps : List Piece, colorSentence w sentence word = .ok (newText ps) ∧ oldText ps = sentence ∧
      (∀ o n, .sub o n ∈ ps → o = word ∧ n = colored word) ∧
      (word ≠ [] → word <:+: sentence → ∃ p ∈ ps, p.isSub = true) ∧
      (word ≠ [] → (∃ a b, sentence = a ++ word ++ b ∧ Standalone w word a b) →
        (∀ A o n B, ps = A ++ .sub o n :: B → Standalone w word (oldText A) (oldText B)) ∧
        (∀ A c B b, ps = A ++ .keep c :: B → c :: oldText B = word ++ b → ¬Standalone w word (oldText A) b)) ∧
      (word ≠ [] → (¬∃ a b, sentence = a ++ word ++ b ∧ Standalone w word a b) →
        ∀ A c B, ps = A ++ .keep c :: B → ¬word <+: c :: oldText B) := by
  have ht : template word (colored word) = .ok (colored word) := by
    refine template_eq word _ ?_
    unfold colored
    rw [List.mem_append, List.mem_append]
    rintro ((h | h) | h)
    · revert h; decide +kernel
    · exact hb h
    · revert h; decide +kernel
  set m : Option Char → Text → Option (ℕ × Text) := fun prev rest =>
    if matchesWord w word prev rest then some (word.length, colored word) else none with hmdef
  have hm : ∀ prev rest l n, m prev rest = some (l, n) → l ≤ rest.length := by
    intro prev rest l n h
    simp only [hmdef] at h
    by_cases hp : matchesWord w word prev rest
    · rw [if_pos hp] at h
      simp only [Option.some.injEq, Prod.mk.injEq] at h
      rw [← h.1]
      unfold matchesWord at hp
      rw [Bool.and_eq_true, Bool.and_eq_true, List.isPrefixOf_iff_prefix] at hp
      exact hp.1.1.length_le
    · rw [if_neg hp] at h; cases h
  obtain ⟨hsc, hold⟩ := scan_scanned m hm sentence.length none sentence le_rfl
  have hsub : ∀ A o n B, scan m 0 none sentence = A ++ .sub o n :: B →
      o = word ∧ n = colored word ∧ Standalone w word (oldText A) (oldText B) := by
    intro A o n B hp
    have h := hsc.of_sub A o n B hp
    rw [Option.or_none] at h
    simp only [hmdef] at h
    by_cases hq : matchesWord w word (oldText A).getLast? (o ++ oldText B)
    · rw [if_pos hq] at h
      simp only [Option.some.injEq, Prod.mk.injEq] at h
      obtain ⟨b, h1, h2⟩ := (matchesWord_iff w word (oldText A) _).mp hq
      obtain ⟨rfl, rfl⟩ := List.append_inj h1 h.1.symm
      exact ⟨rfl, h.2.symm, h2⟩
    · rw [if_neg hq] at h; cases h
  have hkeep : word ≠ [] → ∀ A c B b, scan m 0 none sentence = A ++ .keep c :: B → c :: oldText B = word ++ b →
      ¬Standalone w word (oldText A) b := by
    intro hne A c B b hp hcb hst
    have hpos : ∀ prev rest n, m prev rest ≠ some (0, n) := by
      intro prev rest n h
      simp only [hmdef] at h
      by_cases hp : matchesWord w word prev rest
      · rw [if_pos hp] at h
        simp only [Option.some.injEq, Prod.mk.injEq] at h
        exact hne (List.length_eq_zero_iff.mp h.1)
      · rw [if_neg hp] at h; cases h
    have h := hsc.of_keep hpos A c B hp
    rw [Option.or_none] at h
    simp only [hmdef] at h
    rw [if_pos ((matchesWord_iff w word (oldText A) _).mpr ⟨b, hcb, hst⟩)] at h
    cases h
  have hex : word ≠ [] → (∃ a b, sentence = a ++ word ++ b ∧ Standalone w word a b) →
      ∃ p ∈ scan m 0 none sentence, p.isSub = true := by
    rintro hne ⟨a, b, hs, hst⟩
    by_contra hno
    push Not at hno
    have hall := all_keep (scan m 0 none sentence) (fun p hp => by simpa using hno p hp)
    rw [hold, hs] at hall
    cases word with
    | nil => exact hne rfl
    | cons c word =>
      refine hkeep hne (a.map Piece.keep) c ((word ++ b).map Piece.keep) b ?_ ?_ ?_
      · rw [hs, hall]; simp
      · rw [oldText_keep]; rfl
      · rw [oldText_keep]; exact hst
  unfold colorSentence replaceSentence
  rw [ht]
  dsimp only [bind, Except.bind, pure, Except.pure]
  by_cases hc : (scan m 0 none sentence).countP Piece.isSub = 0
  · rw [if_pos hc]
    have hno : word ≠ [] → ¬∃ a b, sentence = a ++ word ++ b ∧ Standalone w word a b := by
      intro hne hst
      obtain ⟨p, hp, hs⟩ := hex hne hst
      exact (List.countP_eq_zero.mp hc p hp) hs
    obtain ⟨r1, r2, r3⟩ := replaceAll_spec word (colored word) sentence
    have hk : word ≠ [] → ∀ A c B, replaceAll word (colored word) sentence = A ++ .keep c :: B → ¬word <+: c :: oldText B := by
      intro hne A c B hp hpre
      have h := r1.of_keep (by
        intro prev rest n h
        by_cases hq : word.isPrefixOf rest
        · rw [if_pos hq] at h
          simp only [Option.some.injEq, Prod.mk.injEq] at h
          exact hne (List.length_eq_zero_iff.mp h.1)
        · rw [if_neg hq] at h; cases h) A c B hp
      rw [if_pos (List.isPrefixOf_iff_prefix.mpr hpre)] at h
      cases h
    refine ⟨_, rfl, r2, r3, ?_, fun hne hst => absurd hst (hno hne), fun hne _ => hk hne⟩
    rintro hne ⟨a, b, hab⟩
    by_contra hcon
    push Not at hcon
    have hall := all_keep (replaceAll word (colored word) sentence) (fun p hp => by simpa using hcon p hp)
    rw [r2, ← hab] at hall
    cases word with
    | nil => exact hne rfl
    | cons c word =>
      refine hk hne (a.map Piece.keep) c ((word ++ b).map Piece.keep) ?_ ?_
      · rw [← hab, hall]; simp
      · rw [oldText_keep]; exact List.prefix_append (c :: word) b
  · rw [if_neg hc]
    have hsome : ∃ p ∈ scan m 0 none sentence, p.isSub = true := by
      by_contra hno
      push Not at hno
      exact hc (List.countP_eq_zero.mpr (fun p hp => by simpa using hno p hp))
    refine ⟨_, rfl, hold, ?_, fun _ _ => hsome, fun hne _ => ⟨fun A o n B hp => (hsub A o n B hp).2.2, hkeep hne⟩, ?_⟩
    · intro o n hmem
      obtain ⟨A, B, hAB⟩ := List.append_of_mem hmem
      exact ⟨(hsub A o n B hAB).1, (hsub A o n B hAB).2.1⟩
    · intro hne hno
      exfalso
      obtain ⟨p, hp, hs⟩ := hsome
      cases p with
      | keep c => simp [Piece.isSub] at hs
      | sub o n =>
        obtain ⟨A, B, hAB⟩ := List.append_of_mem hp
        obtain ⟨rfl, _, hst⟩ := hsub A o n B hAB
        refine hno ⟨oldText A, oldText B, ?_, hst⟩
        rw [← hold, hAB, oldText_append, oldText_cons, List.append_assoc]
        rfl

example : colorSentence (fun c => c.isAlphanum || c == '_') "I think It is I".toList ['I'] =
    .ok "\x1b[31mI\x1b[0m think It is \x1b[31mI\x1b[0m".toList := by decide +kernel

/-- **C94 is violated.** The coloured token is used as a template of `re.subn`: the token `\cite` raises, although it is
a token of the sentence, and in `a\n b` the token `\n` (two characters) comes out as a line break. -/
theorem C94_not_colour :
    (∃ words : List Text, ∃ word ∈ words, ∃ e,
      colorSentence (fun c => c.isAlphanum || c == '_') (getSentence Char.isWhitespace words) word = .error e) ∧
    (∃ sentence word : Text, word <:+: sentence ∧ '\n' ∉ sentence ∧ ∃ r,
      colorSentence (fun c => c.isAlphanum || c == '_') sentence word = .ok r ∧ '\n' ∈ r) := by
  refine ⟨⟨["see", "\\cite"].map String.toList, "\\cite".toList, by decide +kernel, "bad escape", by decide +kernel⟩,
    "a\\n b".toList, "\\n".toList, by decide +kernel, by decide +kernel,
    "a\x1b[31m\n\x1b[0m b".toList, by decide +kernel, by decide +kernel⟩

/-! ## Display -/

variable {K : ℕ}

/-- The loop shows the first `top` entries that are not excluded. -/
theorem displayLoop_eq {ι α : Type} (body : ι → Except String (Option α)) (entry : ι → Option α) (top : ℕ) :
    ∀ (l : List ι) (shown : ℕ), (∀ x ∈ l, body x = .ok (entry x)) → shown < top →
      displayLoop body top shown l = .ok ((l.filterMap entry).take (top - shown))
  | [], shown, _, _ => by simp [displayLoop]
  | x :: r, shown, h, hs => by
    have hr : ∀ y ∈ r, body y = .ok (entry y) := fun y hy => h y (List.mem_cons_of_mem _ hy)
    rw [displayLoop, h x List.mem_cons_self]
    cases he : entry x with
    | none =>
      dsimp only
      rw [displayLoop_eq body entry top r shown hr hs, List.filterMap_cons_none he]
    | some o =>
      dsimp only
      rw [List.filterMap_cons_some he]
      by_cases ht : shown + 1 = top
      · rw [if_pos ht, ← ht]
        simp
      · rw [if_neg ht, displayLoop_eq body entry top r (shown + 1) hr (by omega)]
        dsimp only
        rw [show top - shown = (top - (shown + 1)) + 1 by omega, List.take_succ_cons]

theorem at'_eq {α : Type} (xs : List α) (i : ℕ) (h : i < xs.length) : at' xs i = .ok xs[i] := by
  unfold at'
  rw [List.getElem?_eq_getElem h]

/-- **C94.** What is shown for a token of the data: its position and text, the given and the predicted class, and the
sentence with the token coloured; nothing for an excluded swap. -/
theorem C94_entry [NeZero K] (w ws : Char → Bool) (tokens : List (List Text)) (labels : List (List (Fin K)))
    (probs : List (List (Fin K → ℚ))) (exclude : List (Fin K × Fin K)) (i j : ℕ) (hi : i < tokens.length)
    (hj : j < tokens[i].length) (hli : i < labels.length) (hlj : j < labels[i].length) (hpi : i < probs.length)
    (hpj : j < probs[i].length) :
    showToken w ws tokens (some labels) (some probs) exclude (i, j) =
      if (labels[i][j], argmax probs[i][j]) ∈ exclude then .ok none
      else (colorSentence w (getSentence ws tokens[i]) tokens[i][j]).map (fun text =>
        some ⟨i, j, tokens[i][j], some labels[i][j], some (argmax probs[i][j]), text⟩) := by
  unfold showToken TokenText.optional swap
  rw [at'_eq _ _ hi]
  dsimp only [bind, Except.bind]
  rw [at'_eq _ _ hj, at'_eq _ _ hpi]
  dsimp only
  rw [at'_eq _ _ hpj, at'_eq _ _ hli]
  dsimp only [pure, Except.pure]
  rw [at'_eq _ _ hlj]
  dsimp only [Option.map, Option.bind]
  by_cases hex : (labels[i][j], argmax probs[i][j]) ∈ exclude
  · rw [if_pos hex, if_pos (decide_eq_true hex)]
  · rw [if_neg hex, if_neg (by simpa using hex)]
    cases colorSentence w (getSentence ws tokens[i]) tokens[i][j] <;> rfl

/-- **C94.** With at least one issue and `top ≥ 1`, the first `top` issues that are not excluded are shown, in the order of
the list, when every token of an issue can be shown. Missing: an empty list, `top = 0`, and tokens that raise
(`C94_not_display`, `C94_not_colour`). -/
theorem C94_display_partial [NeZero K] (w ws : Char → Bool) (issues : List (ℕ × ℕ)) (tokens : List (List Text))
    (labels : Option (List (List (Fin K)))) (probs : Option (List (List (Fin K → ℚ)))) (exclude : List (Fin K × Fin K))
    (top : ℕ) (entry : ℕ × ℕ → Option (Shown K)) (hne : issues ≠ []) (htop : 0 < top)
    (h : ∀ x ∈ issues, showToken w ws tokens labels probs exclude x = .ok (entry x)) :
    displayIssues w ws issues tokens labels probs exclude top = .ok ((issues.filterMap entry).take top) := by
  unfold displayIssues
  rw [if_neg hne]
  have hlen : 0 < issues.length := List.length_pos_iff.mpr hne
  rw [displayLoop_eq _ entry _ issues 0 h (by omega)]
  congr 1
  rw [Nat.sub_zero]
  rcases le_total top issues.length with hle | hle
  · rw [min_eq_left hle]
  · rw [min_eq_right hle, List.take_of_length_le, List.take_of_length_le]
    · exact (List.length_filterMap_le _ _).trans hle
    · exact List.length_filterMap_le _ _

/-- **C94 is violated.** Without issues `display_issues` raises, although that is what `find_label_issues` returns for
clean data; with `top = 0` it shows every issue. -/
theorem C94_not_display :
    (∃ e, displayIssues (K := 2) Char.isAlphanum Char.isWhitespace [] [["A".toList]] none none [] 20 = .error e) ∧
    (∃ issues : List (ℕ × ℕ), ∃ tokens : List (List Text), ∃ l,
      displayIssues (K := 2) Char.isAlphanum Char.isWhitespace issues tokens none none [] 0 = .ok l ∧
        l.length = issues.length ∧ l.length = 2) := by
  refine ⟨⟨_, rfl⟩, [(0, 0), (0, 1)], [["A".toList, "b".toList]],
    [⟨0, 0, "A".toList, none, none, "\x1b[31mA\x1b[0m b".toList⟩,
     ⟨0, 1, "b".toList, none, none, "A \x1b[31mb\x1b[0m".toList⟩], ?_, rfl, rfl⟩
  decide +kernel

example : displayIssues (K := 2) Char.isAlphanum Char.isWhitespace [(0, 0), (0, 1)] [["A".toList, "b".toList]]
    (some [[0, 1]]) (some [[fun k => if k = 0 then 1 / 4 else 3 / 4, fun _ => 1 / 2]]) [(1, 0)] 5 =
    .ok [⟨0, 0, "A".toList, some 0, some 1, "\x1b[31mA\x1b[0m b".toList⟩] := by decide +kernel

/-! ## C95: replacement rules and sentence filters -/

/-- The rule `(o, n)` is the last one for `o`. -/
def LastRule (l : List (Text × Text)) (o n : Text) : Prop := ∃ A B, l = A ++ (o, n) :: B ∧ o ∉ B.map Prod.fst

theorem lastRule_snoc (l : List (Text × Text)) (kv : Text × Text) (o n : Text) :
    LastRule (l ++ [kv]) o n ↔ kv = (o, n) ∨ (kv.1 ≠ o ∧ LastRule l o n) := by
  constructor
  · rintro ⟨A, B, hAB, hB⟩
    rcases List.eq_nil_or_concat B with rfl | ⟨B', b, rfl⟩
    · left
      have := List.append_inj_right' hAB rfl
      simpa using this
    · right
      rw [List.concat_eq_append] at hAB hB
      rw [← List.cons_append, ← List.append_assoc] at hAB
      obtain ⟨h1, h2⟩ := List.append_inj' hAB rfl
      obtain rfl : kv = b := by simpa using h2
      simp only [List.map_append, List.map_cons, List.map_nil, List.mem_append, List.mem_singleton, not_or] at hB
      exact ⟨fun e => hB.2 e.symm, A, B', h1, hB.1⟩
  · rintro (rfl | ⟨hne, A, B, rfl, hB⟩)
    · exact ⟨l, [], rfl, by simp⟩
    · refine ⟨A, B ++ [kv], by simp, ?_⟩
      simp only [List.map_append, List.map_cons, List.map_nil, List.mem_append, List.mem_singleton, not_or]
      exact ⟨hB, fun e => hne e.symm⟩

/-- The dictionary has the keys of the rules, each with the value of its last rule. -/
theorem replaceDict_spec (l : List (Text × Text)) :
    (∀ x, x ∈ (replaceDict l).map Prod.fst ↔ x ∈ l.map Prod.fst) ∧
      ∀ o n, (o, n) ∈ replaceDict l ↔ LastRule l o n := by
  induction l using List.reverseRecOn with
  | nil => exact ⟨by simp [replaceDict], by simp [replaceDict, LastRule]⟩
  | append_singleton l kv ih =>
    obtain ⟨ih1, ih2⟩ := ih
    have hstep : replaceDict (l ++ [kv]) = if kv.1 ∈ (replaceDict l).map Prod.fst then
        (replaceDict l).map (fun e => if e.1 = kv.1 then kv else e) else replaceDict l ++ [kv] := by
      unfold replaceDict
      rw [List.foldl_append]
      rfl
    rw [hstep]
    by_cases hk : kv.1 ∈ (replaceDict l).map Prod.fst
    · rw [if_pos hk]
      constructor
      · intro x
        have : ((replaceDict l).map (fun e => if e.1 = kv.1 then kv else e)).map Prod.fst = (replaceDict l).map Prod.fst := by
          rw [List.map_map]
          refine List.map_congr_left (fun e _ => ?_)
          simp only [Function.comp]
          split
          · rename_i h; exact h.symm
          · rfl
        rw [this, ih1]
        simp only [List.map_append, List.mem_append, List.map_cons, List.map_nil, List.mem_singleton]
        constructor
        · exact Or.inl
        · rintro (h | rfl)
          · exact h
          · exact (ih1 _).mp hk
      · intro o n
        rw [lastRule_snoc, ← ih2, List.mem_map]
        constructor
        · rintro ⟨e, he, h⟩
          by_cases h' : e.1 = kv.1
          · rw [if_pos h'] at h; exact Or.inl h
          · rw [if_neg h'] at h
            subst h
            exact Or.inr ⟨fun hh => h' hh.symm, he⟩
        · rintro (rfl | ⟨hne, h⟩)
          · obtain ⟨e, he, hek⟩ := List.mem_map.mp hk
            exact ⟨e, he, by rw [if_pos hek]⟩
          · exact ⟨(o, n), h, by rw [if_neg (fun hh => hne hh.symm)]⟩
    · rw [if_neg hk]
      constructor
      · intro x
        simp only [List.map_append, List.mem_append, ih1]
      · intro o n
        rw [lastRule_snoc, ← ih2, List.mem_append, List.mem_singleton]
        constructor
        · rintro (h | h)
          · refine Or.inr ⟨?_, h⟩
            rintro rfl
            exact hk (List.mem_map.mpr ⟨_, h, rfl⟩)
          · exact Or.inl h.symm
        · rintro (h | h)
          · exact Or.inr h.symm
          · exact Or.inl h.2

/-- **C95.** With at least one rule (and no rule for the empty text), the token is read once from left to right: what is
replaced is the text of a rule, by the value of the last rule for it, replaced text is not replaced again, and no
occurrence of a rule's text starts in what is left over. Missing: an empty list of rules (`C95_not_no_rules`). -/
theorem C95_replace_partial (token : Text) (replace : List (Text × Text)) (hne : replace ≠ [])
    (hkey : ∀ kv ∈ replace, kv.1 ≠ []) :
    ∃ ps : List Piece, processToken token replace = .ok (newText ps) ∧ oldText ps = token ∧
      (∀ o n, .sub o n ∈ ps → LastRule replace o n) ∧
      (∀ A c B, ps = A ++ .keep c :: B → ∀ kv ∈ replace, ¬kv.1 <+: c :: oldText B) := by
  obtain ⟨hk1, hk2⟩ := replaceDict_spec replace
  have hd : replaceDict replace ≠ [] := by
    intro h
    obtain ⟨kv, hkv⟩ := List.exists_mem_of_ne_nil _ hne
    have := (hk1 kv.1).mpr (List.mem_map.mpr ⟨kv, hkv, rfl⟩)
    rw [h] at this
    cases this
  set d := replaceDict replace with hddef
  set m : Option Char → Text → Option (ℕ × Text) :=
    fun _ rest => (firstKey d rest).map (fun e => (e.1.length, e.2)) with hmdef
  have hfirst : ∀ rest l n, (firstKey d rest).map (fun e => (e.1.length, e.2)) = some (l, n) →
      ∃ o, (o, n) ∈ d ∧ o.length = l ∧ o <+: rest := by
    intro rest l n h
    obtain ⟨e, he, hen⟩ := Option.map_eq_some_iff.mp h
    simp only [Prod.mk.injEq] at hen
    unfold firstKey at he
    have h1 := List.find?_some he
    have h2 := List.mem_of_find?_eq_some he
    refine ⟨e.1, ?_, hen.1, List.isPrefixOf_iff_prefix.mp h1⟩
    rw [← hen.2]; exact h2
  have hm : ∀ prev rest l n, m prev rest = some (l, n) → l ≤ rest.length := by
    intro prev rest l n h
    obtain ⟨o, _, rfl, hpre⟩ := hfirst rest l n h
    exact hpre.length_le
  have hpos : ∀ prev rest n, m prev rest ≠ some (0, n) := by
    intro prev rest n h
    obtain ⟨o, ho, hl, _⟩ := hfirst rest 0 n h
    have := (hk1 o).mp (List.mem_map.mpr ⟨_, ho, rfl⟩)
    obtain ⟨kv, hkv, rfl⟩ := List.mem_map.mp this
    exact hkey kv hkv (List.length_eq_zero_iff.mp hl)
  obtain ⟨hsc, hold⟩ := scan_scanned m hm token.length none token le_rfl
  refine ⟨scan m 0 none token, ?_, hold, ?_, ?_⟩
  · unfold processToken
    dsimp only
    rw [if_neg hd]
  · intro o n hmem
    obtain ⟨A, B, hAB⟩ := List.append_of_mem hmem
    have h := hsc.of_sub A o n B hAB
    obtain ⟨o', ho', hl, hpre⟩ := hfirst _ _ _ h
    have : o' = o := List.IsPrefix.eq_of_length
      (List.prefix_of_prefix_length_le hpre (List.prefix_append o _) (by omega)) hl
    rw [this] at ho'
    exact (hk2 o n).mp ho'
  · intro A c B hp kv hkv hpre
    have h := hsc.of_keep hpos A c B hp
    have hnone : firstKey d (c :: oldText B) = none := by
      simpa [hmdef] using h
    unfold firstKey at hnone
    have hmem := (hk1 kv.1).mpr (List.mem_map.mpr ⟨kv, hkv, rfl⟩)
    obtain ⟨e, he, hek⟩ := List.mem_map.mp hmem
    have := List.find?_eq_none.mp hnone e he
    rw [hek] at this
    exact this (List.isPrefixOf_iff_prefix.mpr hpre)

/-- **C95.** A single rule for one character, the default: every occurrence is replaced, everything else stays. -/
theorem C95_one_character (token : Text) (k : Char) (v : Text) :
    processToken token [([k], v)] = .ok (token.flatMap (fun c => if c = k then v else [c])) := by
  obtain ⟨ps, h1, h2, h3, h4⟩ := C95_replace_partial token [([k], v)] (by simp) (by simp)
  rw [h1]
  congr 1
  have key : ∀ ps : List Piece, (∀ o n, .sub o n ∈ ps → o = [k] ∧ n = v) → (∀ c, .keep c ∈ ps → c ≠ k) →
      newText ps = (oldText ps).flatMap (fun c => if c = k then v else [c]) := by
    intro ps
    induction ps with
    | nil => intro _ _; rfl
    | cons p ps ih =>
      intro h h'
      rw [newText_cons, oldText_cons, List.flatMap_append,
        ih (fun o n hm => h o n (List.mem_cons_of_mem _ hm)) (fun c hm => h' c (List.mem_cons_of_mem _ hm))]
      congr 1
      cases p with
      | keep c => simp [Piece.new, Piece.old, h' c List.mem_cons_self]
      | sub o n =>
        obtain ⟨rfl, rfl⟩ := h o n List.mem_cons_self
        simp [Piece.new, Piece.old]
  rw [key ps, h2]
  · intro o n hm
    obtain ⟨A, B, hAB, _⟩ := h3 o n hm
    cases A with
    | nil =>
      simp only [List.nil_append, List.cons.injEq, Prod.mk.injEq] at hAB
      exact ⟨hAB.1.1.symm, hAB.1.2.symm⟩
    | cons a A => simp at hAB
  · rintro c hm rfl
    obtain ⟨A, B, hAB⟩ := List.append_of_mem hm
    exact h4 A c B hAB ([c], v) (by simp) (by simp)

example : processToken "Cleanlab".toList [("C".toList, "a".toList), ("a".toList, "C".toList)] = .ok "aleCnlCb".toList := by
  decide +kernel

/-- **C95 is violated.** An empty list of rules raises for every token instead of leaving it unchanged. -/
theorem C95_not_no_rules : ∀ token : Text, ∃ e, processToken token [] = .error e := fun _ => ⟨_, rfl⟩

/-- **C95.** `filter_sentence` returns the sentences that fulfil the condition, in order, and the mask says which ones. -/
theorem C95_filter (sentences : List Text) (condition : Text → Bool) :
    filterSentence sentences (some condition) = (sentences.filter condition, sentences.map condition) := by
  unfold filterSentence
  dsimp only [Option.getD]
  congr 1
  induction sentences with
  | nil => rfl
  | cons s l ih =>
    rw [List.map_cons, List.zip_cons_cons, List.filter_cons, List.filter_cons]
    cases condition s <;> simp [ih]

/-- **C95.** Without a condition the sentences with at least two characters and no `#` are kept. -/
theorem C95_filter_default (sentences : List Text) :
    (∀ s, s ∈ (filterSentence sentences none).1 ↔ s ∈ sentences ∧ 2 ≤ s.length ∧ '#' ∉ s) ∧
      (filterSentence sentences none).1.Sublist sentences := by
  have h : filterSentence sentences none = filterSentence sentences (some defaultCondition) := rfl
  rw [h, C95_filter]
  refine ⟨fun s => ?_, List.filter_sublist⟩
  simp [defaultCondition, List.mem_filter, Nat.succ_le_iff]

example : filterSentence (["# Headline", "Sentence 1.", "&", "Sentence 2."].map String.toList) none =
    (["Sentence 1.", "Sentence 2."].map String.toList, [false, true, false, true]) := by decide +kernel

end Cleanlab.Props
