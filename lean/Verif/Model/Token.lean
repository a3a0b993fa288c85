import Verif.Model.FilterChecked
import Verif.Model.Batched
import Verif.Model.Multilabel
import Verif.Np.SortOn

/-!
# Model of `cleanlab/token_classification/{filter,rank,summary}.py` and `cleanlab/internal/token_classification_utils.py`

A data set is a list of sentences; labels and predicted probabilities are separate nested lists, as in the code.
-/

namespace Cleanlab.Token

open Np Cleanlab.Util Cleanlab.Count Cleanlab.Rank Cleanlab.Filter Cleanlab.Batched

variable {K : ℕ}

/-- `labels_flatten` and `pred_probs_flatten`, `token_classification/filter.py:78-79`; the check of equal lengths is
`assert_valid_inputs`, called by the functions on flat data. -/
def flattenData (labels : List (List (Fin K))) (probs : List (List (Fin K → ℚ))) : Except String (List (Ex K)) :=
  if labels.flatten.length ≠ probs.flatten.length then .error "pred_probs and labels must have same length."
  else .ok (labels.flatten.zip probs.flatten)

/-- `mapping_flatten`, `token_classification/filter.py:96-98`. -/
def mappingFlatten (lengths : List ℕ) : List (ℕ × ℕ) :=
  (lengths.zipIdx.map (fun p => (List.range p.1).map (fun j => (p.2, j)))).flatten

/-- `mapping_flatten[issue]`. -/
def lookup (lengths : List ℕ) (r : ℕ) : Except String (ℕ × ℕ) :=
  match (mappingFlatten lengths)[r]? with
  | none => .error "IndexError"
  | some p => .ok p

/-- A scoring function for flat data, such as `self_confidence`. -/
abbrev Scorer (K : ℕ) (α : Type) : Type := (n : ℕ) → (Fin n → Fin K) → (Fin n → Fin K → ℚ) → Except String (Fin n → α)

/-- The scorers with rational values, with the check of their inputs. -/
def methodScorer (m : Method) : Scorer K ℚ := fun _ labels P => scoresChecked m labels P

/-- `find_label_issues`, `token_classification/filter.py:15-101`, with `low_memory=False`. -/
def findLabelIssues {α : Type} [LinearOrder α] (A : ArgSort ℚ) (A' : ArgSort α) [NeZero K] (score : Scorer K α)
    (labels : List (List (Fin K))) (probs : List (List (Fin K → ℚ))) (args : Args K) : Except String (List (ℕ × ℕ)) := do
  let data ← flattenData labels probs
  let s ← score data.length (labelsOf data) (probsOf data)
  let issues ← findRankedChecked A A' (labelsOf data) (probsOf data) args s
  issues.mapM (fun r => lookup (labels.map List.length) r.val)

/-- `find_label_issues`, `token_classification/filter.py:15-101`, with `low_memory=True`. The default batch size of
`find_label_issues_batched` is 10000; `none` if the call does not return. -/
def findLabelIssuesLowMemory (A : ArgSort ℚ) [NeZero K] (score : (Fin K → ℚ) → Ex K → ℚ) (jobs : ℕ → Jobs)
    (batchSize : ℕ) (labels : List (List (Fin K))) (probs : List (List (Fin K → ℚ))) :
    Option (Except String (List (ℕ × ℕ))) :=
  match flattenData labels probs with
  | .error e => some (.error e)
  | .ok data => (findLabelIssuesBatchedIndices A score false jobs batchSize data).map
      (fun r => r.bind (fun issues => issues.mapM (fun r => lookup (labels.map List.length) r.val)))

/-- `nested_list`, `token_classification/rank.py:112-114`: `next` of an exhausted iterator raises. -/
def nestedList {α : Type} : List α → List ℕ → Except String (List (List α))
  | _, [] => .ok []
  | x, l :: ls => if x.length < l then .error "StopIteration" else do
    let rest ← nestedList (x.drop l) ls
    return x.take l :: rest

/-- `np.min` of a list. -/
def npMin {α : Type} [LinearOrder α] (l : List α) : Except String α :=
  match l.min? with
  | none => .error "zero-size array to reduction operation minimum which has no identity"
  | some v => .ok v

/-- The token scores of `get_label_quality_scores`, `token_classification/rank.py:107-119`. -/
def tokenScores {α : Type} (score : Scorer K α) (labels : List (List (Fin K))) (probs : List (List (Fin K → ℚ))) :
    Except String (List (List α)) := do
  let data ← flattenData labels probs
  let s ← score data.length (labelsOf data) (probsOf data)
  nestedList (List.ofFn s) (labels.map List.length)

/-- The sentence scores with `sentence_score_method="min"`, `token_classification/rank.py:121-122`. -/
def sentenceScoresMin {α : Type} [LinearOrder α] (scores : List (List α)) : Except String (List α) := scores.mapM npMin

/-- A temperature: a number or infinity. -/
inductive Temperature
  | finite (t : ℝ)
  | inf

/-- The softmin score of one sentence, `token_classification/rank.py:262-273`. An empty sentence raises `ValueError`
in `np.min` and `np.max`; for infinite temperature its mean is `nan`. -/
noncomputable def softminSentence (scores : List ℝ) (t : Temperature) : Except String ℝ :=
  if h : scores.length = 0 then .error "empty sentence"
  else match t with
    | .finite t => if t = 0 then npMin scores
      else haveI : NeZero scores.length := ⟨h⟩; .ok (Multilabel.softmin scores.get t)
    | .inf => .ok (scores.sum / scores.length)

/-- `_softmin_sentence_score`, `token_classification/rank.py:231-274`. -/
noncomputable def sentenceScoresSoftmin (scores : List (List ℝ)) (t : Temperature) : Except String (List ℝ) :=
  scores.mapM (fun s => softminSentence s t)

/-- The loop `while sentence_scores[ranking[cutoff]] < threshold and cutoff < len(ranking)`,
`token_classification/rank.py:225-227`, on the scores from position `cutoff` on: the number of further rounds. The
score is read before the bound is checked. -/
def cutoffFrom (t : ℚ) : List ℚ → Except String ℕ
  | [] => .error "IndexError: index is out of bounds"
  | s :: rest => if s < t then (cutoffFrom t rest).map (· + 1) else .ok 0

/-- `issues_from_scores` without token scores, `token_classification/rank.py:223-228`. -/
def issuesFromScores {N : ℕ} (A : ArgSort ℚ) (scores : Fin N → ℚ) (t : ℚ) : Except String (List (Fin N)) := do
  let ranking := A.indices scores
  let cutoff ← cutoffFrom t (ranking.map scores)
  return ranking.take cutoff

/-- `issues_from_scores` with a non-empty list of token scores, `token_classification/rank.py:212-221`. -/
def issuesFromTokenScores (A : ArgSort ℚ) (scores : List (List ℚ)) (t : ℚ) : List (ℕ × ℕ) :=
  (sortOn A (fun x => x.2.2) (scores.zipIdx.flatMap (fun s =>
    s.1.zipIdx.filterMap (fun x => if x.1 < t then some (s.2, x.2, x.1) else none)))).map (fun x => (x.1, x.2.1))

/-- `xs[i][j]`. -/
def get2 {α : Type} (xs : List (List α)) (p : ℕ × ℕ) : Except String α :=
  match xs[p.1]? with
  | none => .error "IndexError"
  | some row => match row[p.2]? with
    | none => .error "IndexError"
    | some x => .ok x

/-- `filter_by_token`, `token_classification/summary.py:302-345`; `lower` stands for `str.lower`. -/
def filterByToken (lower : String → String) (token : String) (issues : List (ℕ × ℕ)) (tokens : List (List String)) :
    Except String (List (ℕ × ℕ)) :=
  issues.filterMapM (fun p => (get2 tokens p).map (fun word => if lower token = lower word then some p else none))

/-- `mapping`, `internal/token_classification_utils.py:135-162`, for non-negative entities. -/
def mapping {α : Type} (entities : List ℕ) (maps : List α) : Except String (List α) :=
  entities.mapM (fun x => match maps[x]? with | none => .error "IndexError" | some y => .ok y)

variable {K' : ℕ}

/-- The loop of `merge_probs`, `internal/token_classification_utils.py:200-206`, for one row. `none` stands for -1;
the number of new classes `np.max(maps) + 1` is part of the type. -/
def mergeRaw (p : Fin K → ℚ) (maps : Fin K → Option (Fin K')) : Fin K' → ℚ :=
  (List.finRange K).foldl (fun acc i => match maps i with
    | none => acc
    | some c => Function.update acc c (acc c + p i)) (fun _ => 0)

/-- `merge_probs`, `internal/token_classification_utils.py:165-210`, for one row; 0/0 is `nan`. -/
def mergeProbs (p : Fin K → ℚ) (maps : Fin K → Option (Fin K')) : Except String (Fin K' → ℚ) :=
  let merged := mergeRaw p maps
  if ∃ i, maps i = none then
    if ∑ c, merged c = 0 then .error "nan" else .ok (fun c => merged c / ∑ c', merged c')
  else .ok merged

end Cleanlab.Token
