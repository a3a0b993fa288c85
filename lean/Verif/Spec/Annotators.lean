import Verif.Np.Basic

/-!
# Specification vocabulary for data labelled by several annotators

`L i m` is the label of annotator `m` for example `i`, `none` if there is none.
-/

namespace Cleanlab.Spec

variable {n M K : ℕ}

/-- Number of annotators that gave label `k` to example `i`. -/
def numVotes (L : Fin n → Fin M → Option (Fin K)) (i : Fin n) (k : Fin K) : ℕ :=
  (Finset.univ.filter (fun m => L i m = some k)).card

/-- Number of annotators that labelled example `i`. -/
def numAnnotators (L : Fin n → Fin M → Option (Fin K)) (i : Fin n) : ℕ :=
  (Finset.univ.filter (fun m => L i m ≠ none)).card

/-- `k` is a most frequent label of example `i`. -/
def IsMode (L : Fin n → Fin M → Option (Fin K)) (i : Fin n) (k : Fin K) : Prop :=
  ∀ j, numVotes L i j ≤ numVotes L i k

/-- Total number of annotations with label `k`. -/
def totalVotes (L : Fin n → Fin M → Option (Fin K)) (k : Fin K) : ℕ := ∑ i, numVotes L i k

/-- Every example and every annotator has a label, there are at least two annotators, and some example has not
exactly one label: the inputs the multi-annotator functions accept. -/
def ValidAnnotations (L : Fin n → Fin M → Option (Fin K)) : Prop :=
  (∀ i, ∃ m, L i m ≠ none) ∧ (∀ m, ∃ i, L i m ≠ none) ∧ 2 ≤ M ∧ ∃ i, numAnnotators L i ≠ 1

/-- Number of pairs (example labelled by `m`, other annotator who labelled it). -/
def pairs (L : Fin n → Fin M → Option (Fin K)) (m : Fin M) : ℕ :=
  ∑ i, (Finset.univ.filter (fun m' => m' ≠ m ∧ L i m ≠ none ∧ L i m' ≠ none)).card

/-- Number of these pairs in which both gave the same label. -/
def agreeingPairs (L : Fin n → Fin M → Option (Fin K)) (m : Fin M) : ℕ :=
  ∑ i, (Finset.univ.filter (fun m' => m' ≠ m ∧ L i m ≠ none ∧ L i m' = L i m)).card

/-- Number of examples labelled by annotator `m`. -/
def numLabelled (L : Fin n → Fin M → Option (Fin K)) (m : Fin M) : ℕ :=
  (Finset.univ.filter (fun i => L i m ≠ none)).card

/-- Number of examples to which annotator `m` gave the label `c`. -/
def numAgreeing (L : Fin n → Fin M → Option (Fin K)) (c : Fin n → Fin K) (m : Fin M) : ℕ :=
  (Finset.univ.filter (fun i => L i m = some (c i))).card

end Cleanlab.Spec
