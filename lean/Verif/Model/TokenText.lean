import Verif.Model.Token
import Mathlib.Data.List.Infix

/-!
# Model of the text helpers in `cleanlab/internal/token_classification_utils.py` and of `display_issues` in
`cleanlab/token_classification/summary.py`

Strings are lists of characters. `w` says which characters `\w` matches, `ws` which characters `str.strip` removes; both
are arbitrary (Python uses the Unicode tables).
-/

namespace Cleanlab.TokenText

open Np

/-- Text as a list of characters. -/
abbrev Text := List Char

/-- One step of a substitution: a character that is kept, or a matched text and what replaces it. -/
inductive Piece where
  | keep (c : Char)
  | sub (old new : Text)
  deriving DecidableEq

namespace Piece

/-- The text before the substitution. -/
def old : Piece → Text
  | keep c => [c]
  | sub o _ => o

/-- The text after the substitution. -/
def new : Piece → Text
  | keep c => [c]
  | sub _ n => n

/-- Is the piece a substitution? -/
def isSub : Piece → Bool
  | keep _ => false
  | sub _ _ => true

end Piece

/-- The text before the substitutions. -/
def oldText (ps : List Piece) : Text := ps.flatMap Piece.old

/-- The text after the substitutions. -/
def newText (ps : List Piece) : Text := ps.flatMap Piece.new

/-- The left-to-right scan of `re.sub` and `str.replace`: `m prev rest` is the length of the match at the current
position and its replacement. `skip` characters of the last match are still to be passed. An empty match is replaced and
the scan goes on with the next character. -/
def scan (m : Option Char → Text → Option (ℕ × Text)) : ℕ → Option Char → Text → List Piece
  | skip + 1, _, c :: r => scan m skip (some c) r
  | 0, prev, c :: r =>
    match m prev (c :: r) with
    | some (0, new) => .sub [] new :: .keep c :: scan m 0 (some c) r
    | some (l + 1, new) => .sub ((c :: r).take (l + 1)) new :: scan m l (some c) r
    | none => .keep c :: scan m 0 (some c) r
  | _ + 1, _, [] => []
  | 0, prev, [] =>
    match m prev [] with
    | some (_, new) => [.sub [] new]
    | none => []

/-- `text.replace(old, new)`. -/
def replaceAll (old new : Text) (text : Text) : List Piece :=
  scan (fun _ rest => if old.isPrefixOf rest then some (old.length, new) else none) 0 none text

/-- `string.punctuation`. -/
def punctuation : Text := "!\"#$%&'()*+,-./:;<=>?@[\\]^_`{|}~".toList

/-- `text.strip()`. -/
def strip (ws : Char → Bool) (text : Text) : Text := ((text.dropWhile ws).reverse.dropWhile ws).reverse

/-- `get_sentence`, `token_classification_utils.py:19-46`; `word not in string.punctuation` is a substring test. -/
def getSentence (ws : Char → Bool) (words : List Text) : Text :=
  let sentence := words.flatMap (fun word =>
    if ¬(word <:+: punctuation) ∨ word = ['-'] ∨ word = ['('] then ' ' :: word else word)
  strip ws (newText (replaceAll ['(', ' '] ['('] (newText (replaceAll [' ', '\''] ['\''] sentence))))

/-- The default condition of `filter_sentence`, `token_classification_utils.py:86-87`. -/
def defaultCondition (sentence : Text) : Bool := decide (1 < sentence.length) && decide ('#' ∉ sentence)

/-- `filter_sentence`, `token_classification_utils.py:49-90`. -/
def filterSentence (sentences : List Text) (condition : Option (Text → Bool)) : List Text × List Bool :=
  let condition := condition.getD defaultCondition
  let mask := sentences.map condition
  (((mask.zip sentences).filter (fun p => p.1)).map Prod.snd, mask)

/-- `replace_dict`, `token_classification_utils.py:127` (the keys are escaped, which is injective): a repeated key keeps
its first position and takes the last value. -/
def replaceDict (replace : List (Text × Text)) : List (Text × Text) :=
  replace.foldl (fun d kv => if kv.1 ∈ d.map Prod.fst then d.map (fun e => if e.1 = kv.1 then kv else e) else d ++ [kv]) []

/-- The first alternative of the pattern that matches here. -/
def firstKey (d : List (Text × Text)) (rest : Text) : Option (Text × Text) :=
  d.find? (fun e => e.1.isPrefixOf rest)

/-- `process_token`, `token_classification_utils.py:93-132`, for keys other than the empty text. Without keys the pattern
is empty and matches at once, and the lookup of the empty match in the empty dictionary raises. -/
def processToken (token : Text) (replace : List (Text × Text)) : Except String Text :=
  let d := replaceDict replace
  if d = [] then .error "KeyError"
  else .ok (newText (scan (fun _ rest => (firstKey d rest).map (fun e => (e.1.length, e.2))) 0 none token))

/-- The replacement text of `re.subn` (`re._parser.parse_template` of CPython): backslash escapes are interpreted.
`word` is the text of the match, for `\g<0>`. Simplified: octal escapes are treated like group references, and other
spellings of group 0 as errors. -/
def template (word : Text) : Text → Except String Text
  | [] => .ok []
  | ['\\'] => .error "bad escape (end of pattern)"
  | '\\' :: 'g' :: '<' :: '0' :: '>' :: r => do return word ++ (← template word r)
  | '\\' :: 'g' :: _ => .error "missing group name"
  | '\\' :: c :: r =>
    if c.isDigit then .error "invalid group reference"
    else if c = 'a' then do return '\x07' :: (← template word r)
    else if c = 'b' then do return '\x08' :: (← template word r)
    else if c = 'f' then do return '\x0c' :: (← template word r)
    else if c = 'n' then do return '\n' :: (← template word r)
    else if c = 'r' then do return '\r' :: (← template word r)
    else if c = 't' then do return '\t' :: (← template word r)
    else if c = 'v' then do return '\x0b' :: (← template word r)
    else if c = '\\' then do return '\\' :: (← template word r)
    else if c.isAlpha then .error "bad escape"
    else do return '\\' :: c :: (← template word r)
  | c :: r => do return c :: (← template word r)

/-- Does `\b` match between these neighbours? Outside the text there is no word character. -/
def boundary (w : Char → Bool) (a b : Option Char) : Bool := (a.map w).getD false != (b.map w).getD false

/-- Does `\bword\b` match here? -/
def matchesWord (w : Char → Bool) (word : Text) (prev : Option Char) (rest : Text) : Bool :=
  word.isPrefixOf rest && boundary w prev rest.head? &&
    boundary w (word.getLast?.or prev) (rest.drop word.length).head?

/-- `_replace_sentence`, `token_classification_utils.py:248-276`. The template is parsed before the search. -/
def replaceSentence (w : Char → Bool) (sentence word newWord : Text) : Except String Text := do
  let new ← template word newWord
  let ps := scan (fun prev rest => if matchesWord w word prev rest then some (word.length, new) else none) 0 none sentence
  if ps.countP Piece.isSub = 0 then return newText (replaceAll word newWord sentence)
  else return newText ps

/-- `termcolor.colored(word, "red", force_color=True)`. -/
def colored (word : Text) : Text := "\x1b[31m".toList ++ word ++ "\x1b[0m".toList

/-- `color_sentence`, `token_classification_utils.py:213-245`. -/
def colorSentence (w : Char → Bool) (sentence word : Text) : Except String Text :=
  replaceSentence w sentence word (colored word)

variable {K : ℕ}

/-- What `display_issues` prints for a token: its position, the token, the given and the predicted class, and the sentence. -/
structure Shown (K : ℕ) where
  sentence : ℕ
  token : ℕ
  word : Text
  given : Option (Fin K)
  pred : Option (Fin K)
  text : Text
  deriving DecidableEq

/-- Python's `xs[i]`. -/
def at' {α : Type} (xs : List α) (i : ℕ) : Except String α :=
  match xs[i]? with
  | some x => .ok x
  | none => .error "IndexError"

/-- `xs[i][j]` for an optional argument. -/
def optional {α : Type} (xs : Option (List (List α))) (i j : ℕ) : Except String (Option α) :=
  match xs with
  | none => .ok none
  | some xs => do
    let row ← at' xs i
    let x ← at' row j
    return some x

/-- The swap of an issue, when labels and predictions are given. -/
def swap {α : Type} (given pred : Option α) : Option (α × α) := do
  let g ← given
  let p ← pred
  return (g, p)

/-- The body of the loop of `display_issues` for a token, `token_classification/summary.py:99-129`; `none` for an excluded
swap. Class names are left out: the classes are printed by index. An empty list of labels or predictions is not the same
as `None` here. -/
def showToken [NeZero K] (w ws : Char → Bool) (tokens : List (List Text)) (labels : Option (List (List (Fin K))))
    (probs : Option (List (List (Fin K → ℚ)))) (exclude : List (Fin K × Fin K)) (issue : ℕ × ℕ) :
    Except String (Option (Shown K)) := do
  let words ← at' tokens issue.1
  let word ← at' words issue.2
  let row ← optional probs issue.1 issue.2
  let given ← optional labels issue.1 issue.2
  let pred := row.map (fun p => argmax p)
  if (match swap given pred with | some s => decide (s ∈ exclude) | none => false) then return none
  let text ← colorSentence w (getSentence ws words) word
  return some ⟨issue.1, issue.2, word, given, pred, text⟩

/-- The loop of `display_issues` with its counter, `token_classification/summary.py:98-137`. What was printed before an
exception is not recorded. -/
def displayLoop {ι α : Type} (body : ι → Except String (Option α)) (top : ℕ) : ℕ → List ι → Except String (List α)
  | _, [] => .ok []
  | shown, x :: r =>
    match body x with
    | .error e => .error e
    | .ok none => displayLoop body top shown r
    | .ok (some o) =>
      if shown + 1 = top then .ok [o]
      else match displayLoop body top (shown + 1) r with
        | .error e => .error e
        | .ok l => .ok (o :: l)

/-- `display_issues` for tokens, `token_classification/summary.py:94-137`: `issues[0]` raises for an empty list. -/
def displayIssues [NeZero K] (w ws : Char → Bool) (issues : List (ℕ × ℕ)) (tokens : List (List Text))
    (labels : Option (List (List (Fin K)))) (probs : Option (List (List (Fin K → ℚ)))) (exclude : List (Fin K × Fin K))
    (top : ℕ) : Except String (List (Shown K)) :=
  if issues = [] then .error "IndexError"
  else displayLoop (showToken w ws tokens labels probs exclude) (min top issues.length) 0 issues

end Cleanlab.TokenText
