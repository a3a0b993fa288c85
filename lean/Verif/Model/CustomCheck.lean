import Mathlib.Data.List.Basic
import Mathlib.Data.Finset.Max

/-!
# Model of the definition of a check

`IssueManagerMeta.__new__`, `IssueManager.__init_subclass__` and the report levels in `IssueManager.report`,
`cleanlab/datalab/internal/issue_manager/issue_manager.py`. Inheritance is single.
-/

namespace Cleanlab.CustomCheck

/-- An entry of a list of keys: a string or something else. -/
inductive Key where
  | str (s : String)
  | other
  deriving DecidableEq

/-- The value of a level in `verbosity_levels`. -/
inductive LevelValue where
  | list (keys : List Key)
  | iterable (keys : List Key)
  | atom
  deriving DecidableEq

/-- `verbosity_levels` in the order of its definition. -/
abbrev Levels : Type := List (ℤ × LevelValue)

/-- The body of a `class` statement: whether `ABC` is among the bases, and the attributes it sets. -/
structure Body where
  abc : Bool
  issueName : Option String
  scoreKey : Option String
  levels : Option Levels

/-- A class: the values of its attributes, its own or inherited. -/
structure Cls where
  issueName : Option String
  scoreKey : Option String
  levels : Levels
  deriving DecidableEq

/-- `IssueManager`, `issue_manager.py:67-127`. -/
def base : Cls := ⟨none, none, [(0, .list []), (1, .list []), (2, .list []), (3, .list [])]⟩

/-- The loop over the levels, `issue_manager.py:45-57`. -/
def checkLevels : Levels → Except String Unit
  | [] => .ok ()
  | (_, .list keys) :: rest => if .other ∈ keys then .error "ValueError" else checkLevels rest
  | _ :: _ => .error "ValueError"

/-- `class Name(parent): body`, `issue_manager.py:34-64` and `139-146`. The levels of the metaclass are those of the base class. -/
def define (parent : Cls) (b : Body) : Except String Cls :=
  if b.abc then
    match b.issueName.or parent.issueName with
    | none => .error "NotImplementedError"
    | some name => .ok ⟨some name, b.scoreKey.or parent.scoreKey, b.levels.getD parent.levels⟩
  else
    match checkLevels (b.levels.getD base.levels) with
    | .error e => .error e
    | .ok _ =>
      match b.issueName with
      | none => .error "TypeError"
      | some name => .ok ⟨some name, some (name ++ "_score"), b.levels.getD parent.levels⟩

/-- A chain of class statements, each deriving from the one before. -/
def defineAll (parent : Cls) : List Body → Except String Cls
  | [] => .ok parent
  | b :: rest => match define parent b with
    | .error e => .error e
    | .ok c => defineAll c rest

/-- `list(values)[:v]` for an integer `v`. -/
def pySlice {α : Type} (l : List α) (v : ℤ) : List α :=
  if 0 ≤ v then l.take v.toNat else l.take (l.length - (-v).toNat)

/-- `chain.from_iterable(...)`. -/
def chain : List LevelValue → Except String (List Key)
  | [] => .ok []
  | .list keys :: rest => match chain rest with
    | .error e => .error e
    | .ok l => .ok (keys ++ l)
  | .iterable keys :: rest => match chain rest with
    | .error e => .error e
    | .ok l => .ok (keys ++ l)
  | .atom :: _ => .error "TypeError"

/-- The keys of `info` that a report of the class shows, `issue_manager.py:255-262` and `281-311`: `keys` are those of `info`, `hidden` the
columns of the issues and what the caller leaves out. `statistics` is looked up but not printed. -/
def shownKeys (c : Cls) (keys hidden : List String) (verbosity : ℤ) : Except String (List String) :=
  match (c.levels.map Prod.fst).max? with
  | none => .error "ValueError: max() arg is an empty sequence"
  | some top =>
    if verbosity ∉ c.levels.map Prod.fst ++ [top + 1] then .error "ValueError: verbosity level not supported"
    else
      match chain (pySlice (c.levels.map Prod.snd) (verbosity + 1)) with
      | .error e => .error e
      | .ok listed =>
        let wanted := listed.filter (fun k => decide (k ∉ hidden.map Key.str)) ++
          (if verbosity = top + 1 then (keys.filter (fun k => decide (k ∉ hidden))).map Key.str else [])
        if wanted.all (fun k => decide (k ∈ keys.map Key.str)) then
          .ok (keys.filter (fun k => decide (Key.str k ∈ wanted) && decide (k ≠ "statistics")))
        else .error "KeyError"

end Cleanlab.CustomCheck
