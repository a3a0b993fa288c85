import Verif.Props.DataValuation

/-!
# C202: the data values of wrongly labelled examples among right ones; C203: not every one of them is reported
-/

namespace Cleanlab.Props

open Np Cleanlab.DataValuation

variable {N : ℕ} {L : Type} [DecidableEq L]

/-- The classes are apart: the `k` nearest neighbours of an example have its true class. -/
def Apart (truth : Fin N → L) (neighbors : Fin N → List (Fin N)) (k : ℕ) : Prop :=
  ∀ a, ∀ i ∈ (neighbors a).take k, truth i = truth a

/-- The number of rightly labelled examples that have `i` among their `k` nearest neighbours. -/
def rightListers (y truth : Fin N → L) (neighbors : Fin N → List (Fin N)) (k : ℕ) (i : Fin N) : ℕ :=
  (Finset.univ.filter (fun a => i ∈ (neighbors a).take k ∧ y a = truth a)).card

/-- The number of wrongly labelled examples with the label of `i` that have `i` among their `k` nearest neighbours. -/
def wrongListers (y truth : Fin N → L) (neighbors : Fin N → List (Fin N)) (k : ℕ) (i : Fin N) : ℕ :=
  (Finset.univ.filter (fun a => i ∈ (neighbors a).take k ∧ y a ≠ truth a ∧ y a = y i)).card

theorem contribution_apart (neighbors : Fin N → List (Fin N)) (y truth : Fin N → L) (k : ℕ) (hk : 1 ≤ k)
    (hlen : ∀ a, k ≤ (neighbors a).length) (hT : Apart truth neighbors k)
    (hlast : ∀ a z, (neighbors a)[k - 1]? = some z → y z = truth z) (a i : Fin N) :
    contribution y (y a) (neighbors a) k i = if y i = truth i then 0 else
      (if i ∈ (neighbors a).take k ∧ y a ≠ truth a ∧ y a = y i then 1 else 0) -
        (if i ∈ (neighbors a).take k ∧ y a = truth a then 1 else 0) := by
  have hl := hlen a
  have hz : (neighbors a)[k - 1]? = some ((neighbors a)[k - 1]'(by omega)) := List.getElem?_eq_getElem _
  unfold contribution
  rw [hz]
  dsimp only
  by_cases hi : i ∈ (neighbors a).take k
  · have hzm : (neighbors a)[k - 1]'(by omega) ∈ (neighbors a).take k := by
      rw [List.mem_iff_getElem]
      exact ⟨k - 1, by rw [List.length_take]; omega, by rw [List.getElem_take]⟩
    have hzy : y ((neighbors a)[k - 1]'(by omega)) = truth a := (hlast a _ hz).trans (hT a _ hzm)
    have hia := hT a i hi
    rw [if_pos hi]
    unfold matchInd
    rw [hzy]
    simp only [hi, true_and]
    by_cases hya : y a = truth a
    · by_cases hyi : y i = truth i
      · rw [if_pos hyi, if_pos (by rw [hyi, hia, hya]), if_pos hya.symm]; norm_num
      · rw [if_neg hyi, if_neg (fun e => hyi (by rw [e, hya, hia])), if_pos hya.symm, if_neg (fun h => h.1 hya), if_pos hya]
    · by_cases hyi : y i = truth i
      · rw [if_pos hyi, if_neg (fun e => hya (by rw [← e, hyi, hia])), if_neg (fun e => hya e.symm)]; norm_num
      · have hya' : ¬ truth a = y a := fun e => hya e.symm
        rw [if_neg hyi]
        by_cases e : y i = y a
        · simp [e, hya, hya']
        · have e' : ¬ y a = y i := fun h => e h.symm
          simp [e, e', hya, hya']
  · simp [hi]

/-- **C202**: where the classes are apart and the `k`-th neighbours are rightly labelled, every rightly labelled example has the
score 1/2 and is not reported; a wrongly labelled one loses for every rightly labelled example that has it among its `k` nearest
neighbours and gains for every one with the same wrong label, and it is reported exactly if it loses more than it gains. -/
theorem C202_values (neighbors : Fin N → List (Fin N)) (columns : ℕ) (y truth : Fin N → L) (k : ℕ) (hk : 1 ≤ k) (hN : 0 < N)
    (hc : k ≤ columns) (hlen : ∀ a, (neighbors a).length = columns) (hT : Apart truth neighbors k)
    (hlast : ∀ a z, (neighbors a)[k - 1]? = some z → y z = truth z) :
    ∃ issues, findIssues neighbors columns y k none = .ok issues ∧
      (∀ i, y i = truth i → issues.2 i = 1 / 2 ∧ issues.1 i = false) ∧
      ∀ i, y i ≠ truth i →
        issues.2 i = 1 / 2 + ((wrongListers y truth neighbors k i : ℚ) - rightListers y truth neighbors k i) / (2 * k * N) ∧
        (issues.1 i = true ↔ wrongListers y truth neighbors k i < rightListers y truth neighbors k i) := by
  obtain ⟨s, hs, hf⟩ := C35_closed_form neighbors y k hk hN (fun a => by rw [hlen a]; exact hc)
  have hcon := contribution_apart neighbors y truth k hk (fun a => by rw [hlen a]; exact hc) hT hlast
  have hk' : (0 : ℚ) < k := by exact_mod_cast hk
  have hN' : (0 : ℚ) < N := by exact_mod_cast hN
  refine ⟨(fun i => decide (s i < 1 / 2), s), ?_, fun i hi => ?_, fun i hi => ?_⟩
  · unfold findIssues
    rw [if_neg (by omega), hs]; rfl
  · have h : s i = 1 / 2 := by
      rw [hf]
      simp only [hcon, if_pos hi]
      simp
    exact ⟨h, decide_eq_false (by rw [h]; norm_num)⟩
  · have h : s i = 1 / 2 + ((wrongListers y truth neighbors k i : ℚ) - rightListers y truth neighbors k i) / (2 * k * N) := by
      rw [hf]
      simp only [hcon, if_neg hi]
      rw [Finset.sum_sub_distrib, Finset.sum_boole, Finset.sum_boole]
      rfl
    refine ⟨h, ?_⟩
    dsimp only
    rw [decide_eq_true_eq, h]
    have hpos : (0 : ℚ) < 2 * k * N := by positivity
    constructor
    · intro hlt
      have : ((wrongListers y truth neighbors k i : ℚ) - rightListers y truth neighbors k i) / (2 * k * N) < 0 := by linarith
      have := (div_neg_iff.mp this).resolve_left (fun h => absurd h.2 (not_lt.mpr hpos.le))
      exact_mod_cast (by linarith [this.1] : (wrongListers y truth neighbors k i : ℚ) < rightListers y truth neighbors k i)
    · intro hlt
      have : (wrongListers y truth neighbors k i : ℚ) < rightListers y truth neighbors k i := by exact_mod_cast hlt
      have := div_neg_of_neg_of_pos (by linarith : (wrongListers y truth neighbors k i : ℚ) - rightListers y truth neighbors k i < 0) hpos
      linarith

/-- **C202**: if moreover no example has a wrongly labelled one with its own wrong label among its neighbours, the wrongly labelled
examples that are reported are those that somebody right has as a neighbour. -/
theorem C202_found (neighbors : Fin N → List (Fin N)) (columns : ℕ) (y truth : Fin N → L) (k : ℕ) (hk : 1 ≤ k) (hN : 0 < N)
    (hc : k ≤ columns) (hlen : ∀ a, (neighbors a).length = columns) (hT : Apart truth neighbors k)
    (hlast : ∀ a z, (neighbors a)[k - 1]? = some z → y z = truth z)
    (hsingle : ∀ a, ∀ i ∈ (neighbors a).take k, y a ≠ truth a → y i ≠ y a) :
    ∃ issues, findIssues neighbors columns y k none = .ok issues ∧
      ∀ i, issues.1 i = true ↔ y i ≠ truth i ∧ ∃ a, y a = truth a ∧ i ∈ (neighbors a).take k := by
  obtain ⟨issues, h, hright, hwrong⟩ := C202_values neighbors columns y truth k hk hN hc hlen hT hlast
  refine ⟨issues, h, fun i => ?_⟩
  by_cases hi : y i = truth i
  · rw [(hright i hi).2]
    exact ⟨fun e => absurd e (by decide), fun h => absurd hi h.1⟩
  · rw [(hwrong i hi).2]
    have h0 : wrongListers y truth neighbors k i = 0 := by
      unfold wrongListers
      rw [Finset.card_eq_zero, Finset.filter_eq_empty_iff]
      rintro a - ⟨h1, h2, h3⟩
      exact hsingle a i h1 h2 h3.symm
    rw [h0]
    unfold rightListers
    rw [Finset.card_pos]
    constructor
    · rintro ⟨a, ha⟩
      exact ⟨hi, a, (Finset.mem_filter.mp ha).2.2, (Finset.mem_filter.mp ha).2.1⟩
    · rintro ⟨-, a, h1, h2⟩
      exact ⟨a, Finset.mem_filter.mpr ⟨Finset.mem_univ _, h2, h1⟩⟩

/-- The lists contain the `k` nearest of the other points on a line, in order of distance. -/
def NearestOnLine (x : Fin N → ℤ) (neighbors : Fin N → List (Fin N)) (k : ℕ) : Prop :=
  ∀ a, (neighbors a).length = k ∧ (neighbors a).Pairwise (fun b c => |x a - x b| ≤ |x a - x c| ∧ b ≠ c) ∧ a ∉ neighbors a ∧
    ∀ b ∈ neighbors a, ∀ c, c ∉ neighbors a → c ≠ a → |x a - x b| ≤ |x a - x c|

instance (x : Fin N → ℤ) (neighbors : Fin N → List (Fin N)) (k : ℕ) : Decidable (NearestOnLine x neighbors k) := by
  unfold NearestOnLine; infer_instance

/-- Five points on a line. -/
def fivePoints : Fin 5 → ℤ := ![0, 10, 21, 33, 50]

def fiveNeighbors : Fin 5 → List (Fin 5) := ![[1, 2], [0, 2], [1, 3], [2, 4], [3, 2]]

/-- Non-vacuity of C202: the second of five points of one class is labelled wrongly; its neighbours have it reported. -/
example : NearestOnLine fivePoints fiveNeighbors 2 ∧
    ∃ issues, findIssues fiveNeighbors 2 (![0, 1, 0, 0, 0] : Fin 5 → Fin 2) 2 none = .ok issues ∧ issues.1 1 = true := by
  refine ⟨by decide, ?_⟩
  obtain ⟨issues, h, hf⟩ := C202_found fiveNeighbors 2 (![0, 1, 0, 0, 0] : Fin 5 → Fin 2) (fun _ => 0) 2 (by decide) (by decide)
    le_rfl (by decide) (fun _ _ _ => rfl) (by decide) (by decide)
  exact ⟨issues, h, (hf 1).mpr ⟨by decide, 0, rfl, by decide⟩⟩

/-- Eleven points of one class and a distant one. -/
def distantPoint : Fin 12 → ℤ := ![0, 1, 3, 7, 13, 21, 31, 43, 57, 73, 91, 1000]

/-- An example that is nobody's neighbour is not reported, whatever its label. -/
theorem unlisted_value (neighbors : Fin N → List (Fin N)) (columns : ℕ) (y : Fin N → L) (k : ℕ) (hk : 1 ≤ k) (hN : 0 < N)
    (hc : k ≤ columns) (hlen : ∀ a, (neighbors a).length = columns) (i : Fin N) (hi : ∀ a, i ∉ (neighbors a).take k) :
    ∃ issues, findIssues neighbors columns y k none = .ok issues ∧ issues.2 i = 1 / 2 ∧ issues.1 i = false := by
  obtain ⟨s, hs, hf⟩ := C35_bounds neighbors y k hk hN (fun a => by rw [hlen a]; exact hc)
  have h := (hf i).2.2.2 hi
  refine ⟨(fun i => decide (s i < 1 / 2), s), ?_, h, decide_eq_false (by rw [h]; norm_num)⟩
  unfold findIssues
  rw [if_neg (by omega), hs]; rfl

/-- The ten nearest neighbours of the twelve points. -/
def twelveNeighbors : Fin 12 → List (Fin 12) :=
  ![[1, 2, 3, 4, 5, 6, 7, 8, 9, 10], [0, 2, 3, 4, 5, 6, 7, 8, 9, 10], [1, 0, 3, 4, 5, 6, 7, 8, 9, 10],
    [2, 1, 4, 0, 5, 6, 7, 8, 9, 10], [3, 5, 2, 1, 0, 6, 7, 8, 9, 10], [4, 6, 3, 2, 1, 0, 7, 8, 9, 10],
    [5, 7, 4, 3, 8, 2, 1, 0, 9, 10], [6, 8, 5, 4, 9, 3, 2, 1, 0, 10], [7, 9, 6, 10, 5, 4, 3, 2, 1, 0],
    [8, 10, 7, 6, 5, 4, 3, 2, 1, 0], [9, 8, 7, 6, 5, 4, 3, 2, 1, 0], [10, 9, 8, 7, 6, 5, 4, 3, 2, 1]]

/-- **C203 refuted**: eleven examples of one class and a distant one, which is labelled wrongly: with the default of ten neighbours
it is not reported. The same holds for every example that is nobody's neighbour (`unlisted_value`). -/
theorem C203_not_listed (y : Fin 12 → L) : NearestOnLine distantPoint twelveNeighbors 10 ∧
    ∃ issues, findIssues twelveNeighbors 10 y 10 none = .ok issues ∧ issues.1 11 = false := by
  refine ⟨by decide +kernel, ?_⟩
  obtain ⟨issues, h, -, hf⟩ := unlisted_value twelveNeighbors 10 y 10 (by decide) (by decide) le_rfl (by decide) 11 (by decide)
  exact ⟨issues, h, hf⟩

/-- Six points on a line. -/
def sixPoints : Fin 6 → ℤ := ![0, 10, 21, 30, 35, 41]

def sixNeighbors : Fin 6 → List (Fin 6) := ![[1, 2], [0, 2], [3, 1], [4, 2], [3, 5], [4, 3]]

/-- **C203 refuted**: six examples of one class, the first and the third are labelled wrongly. The check reports neither, but the
rightly labelled second one, although all their neighbours have the same true class. -/
theorem C203_not_wrong : NearestOnLine sixPoints sixNeighbors 2 ∧
    ∃ issues, findIssues sixNeighbors 2 (![1, 0, 1, 0, 0, 0] : Fin 6 → Fin 2) 2 none = .ok issues ∧ ∀ i, issues.1 i = true ↔ i = 1 := by
  refine ⟨by decide, ?_⟩
  obtain ⟨s, hs, hf⟩ := C35_closed_form sixNeighbors (![1, 0, 1, 0, 0, 0] : Fin 6 → Fin 2) 2 (by decide) (by decide) (by decide)
  refine ⟨(fun i => decide (s i < 1 / 2), s), ?_, fun i => ?_⟩
  · unfold findIssues
    rw [if_neg (by decide), hs]; rfl
  · have hsum : ∀ i, ∑ a, contribution (![1, 0, 1, 0, 0, 0] : Fin 6 → Fin 2) ((![1, 0, 1, 0, 0, 0] : Fin 6 → Fin 2) a) (sixNeighbors a) 2 i =
        ![0, -1, 0, 0, 1, 0] i := by decide +kernel
    simp only [hf, hsum]
    clear hs hf
    revert i
    decide +kernel

/-- **C203** (what holds): where the classes are apart, the first `k - 1` neighbours of an example may be labelled in any way as long
as the `k`-th is right: then whatever is reported is wrong. -/
theorem C203_reported_partial (neighbors : Fin N → List (Fin N)) (columns : ℕ) (y truth : Fin N → L) (k : ℕ) (hk : 1 ≤ k) (hN : 0 < N)
    (hc : k ≤ columns) (hlen : ∀ a, (neighbors a).length = columns) (hT : Apart truth neighbors k)
    (hlast : ∀ a z, (neighbors a)[k - 1]? = some z → y z = truth z) :
    ∃ issues, findIssues neighbors columns y k none = .ok issues ∧ ∀ i, issues.1 i = true → y i ≠ truth i := by
  obtain ⟨issues, h, hright, -⟩ := C202_values neighbors columns y truth k hk hN hc hlen hT hlast
  refine ⟨issues, h, fun i hi e => ?_⟩
  rw [(hright i e).2] at hi
  exact absurd hi (by decide)

end Cleanlab.Props
