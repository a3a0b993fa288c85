import Verif.Model.Append

/-!
# C97: appending a data point to the features
-/

namespace Cleanlab.Props

open Cleanlab.Append

variable {V : Type}

/-- A well-formed sparse matrix. -/
structure WellFormed (a : Csr V) : Prop where
  length : a.indptr.length = a.rows + 1
  head : a.indptr[0]? = some 0
  mono : a.indptr.Pairwise (· ≤ ·)
  last : a.nnz = a.data.length
  indices : a.indices.length = a.data.length

theorem WellFormed.le_nnz {a : Csr V} (h : WellFormed a) {i p : ℕ} (hi : a.indptr[i]? = some p) : p ≤ a.nnz := by
  obtain ⟨hlt, rfl⟩ := List.getElem?_eq_some_iff.mp hi
  have hne : a.indptr ≠ [] := by intro e; rw [e] at hlt; simp at hlt
  unfold Csr.nnz
  rw [List.getLast?_eq_some_getLast hne]
  simp only [Option.getD]
  rw [List.getLast_eq_getElem]
  rcases Nat.lt_or_ge i (a.indptr.length - 1) with h1 | h1
  · exact List.pairwise_iff_getElem.mp h.mono i (a.indptr.length - 1) hlt (by omega) h1
  · have : i = a.indptr.length - 1 := by omega
    subst this
    exact le_rfl

/-- The entries of `indptr` of the stacked matrix. -/
theorem indptr_vstack {a b : Csr V} (ha : WellFormed a) (hb : WellFormed b) :
    (∀ i, i ≤ a.rows → (csrVstack a b).indptr[i]? = a.indptr[i]?) ∧
      ∀ j, (csrVstack a b).indptr[a.rows + j]? = b.indptr[j]?.map (· + a.nnz) := by
  have h1 : ∀ i, i ≤ a.rows → (csrVstack a b).indptr[i]? = a.indptr[i]? := by
    intro i hi
    unfold csrVstack
    dsimp only
    rw [List.getElem?_append_left (by rw [ha.length]; omega)]
  refine ⟨h1, fun j => ?_⟩
  cases j with
  | zero =>
    rw [Nat.add_zero, h1 a.rows le_rfl, hb.head]
    have hne : a.indptr ≠ [] := by intro e; have := ha.length; rw [e] at this; simp at this
    have : a.indptr[a.rows]? = some (a.indptr.getLast hne) := by
      rw [List.getLast_eq_getElem, ← List.getElem?_eq_getElem]
      congr 1
      rw [ha.length]; rfl
    rw [this]
    unfold Csr.nnz
    rw [List.getLast?_eq_some_getLast hne]
    simp
  | succ j =>
    unfold csrVstack
    dsimp only
    rw [List.getElem?_append_right (by rw [ha.length]; omega), ha.length]
    rw [show a.rows + (j + 1) - (a.rows + 1) = j by omega, List.getElem?_tail, List.getElem?_map]

/-- **C97.** Stacking two well-formed sparse matrices gives a well-formed matrix. -/
theorem C97_well_formed {a b : Csr V} (ha : WellFormed a) (hb : WellFormed b) : WellFormed (csrVstack a b) := by
  obtain ⟨h1, h2⟩ := indptr_vstack ha hb
  have hlen : (csrVstack a b).indptr.length = (a.rows + b.rows) + 1 := by
    unfold csrVstack
    simp [ha.length, hb.length]
    omega
  have hget : ∀ i p, (csrVstack a b).indptr[i]? = some p →
      (i ≤ a.rows ∧ a.indptr[i]? = some p) ∨ ∃ j q, i = a.rows + j ∧ b.indptr[j]? = some q ∧ p = q + a.nnz := by
    intro i p hp
    rcases Nat.le_total i a.rows with hi | hi
    · exact Or.inl ⟨hi, by rw [← h1 i hi]; exact hp⟩
    · right
      obtain ⟨j, rfl⟩ := Nat.exists_eq_add_of_le hi
      rw [h2 j] at hp
      obtain ⟨q, hq, rfl⟩ := Option.map_eq_some_iff.mp hp
      exact ⟨j, q, rfl, hq, rfl⟩
  refine ⟨hlen, ?_, ?_, ?_, ?_⟩
  · rw [h1 0 (Nat.zero_le _)]; exact ha.head
  · rw [List.pairwise_iff_getElem]
    intro i j hi hj hij
    have gi := hget i _ (List.getElem?_eq_getElem hi)
    have gj := hget j _ (List.getElem?_eq_getElem hj)
    rcases gi with ⟨_, gi⟩ | ⟨i', p, rfl, gi, hp⟩
    · rcases gj with ⟨_, gj⟩ | ⟨j', q, rfl, gj, hq⟩
      · obtain ⟨hi', e1⟩ := List.getElem?_eq_some_iff.mp gi
        obtain ⟨hj', e2⟩ := List.getElem?_eq_some_iff.mp gj
        rw [← e1, ← e2]
        exact List.pairwise_iff_getElem.mp ha.mono i j hi' hj' hij
      · rw [hq]
        have := ha.le_nnz gi
        omega
    · rcases gj with ⟨hle, _⟩ | ⟨j', q, rfl, gj, hq⟩
      · omega
      · rw [hp, hq]
        obtain ⟨hi', e1⟩ := List.getElem?_eq_some_iff.mp gi
        obtain ⟨hj', e2⟩ := List.getElem?_eq_some_iff.mp gj
        have := List.pairwise_iff_getElem.mp hb.mono i' j' hi' hj' (by omega)
        omega
  · have hb' : b.indptr[b.rows]? = some b.nnz := by
      have hne : b.indptr ≠ [] := by intro e; have := hb.length; rw [e] at this; simp at this
      unfold Csr.nnz
      rw [List.getLast?_eq_some_getLast hne, Option.getD_some, List.getLast_eq_getElem, ← List.getElem?_eq_getElem]
      congr 1
      rw [hb.length]; rfl
    have := h2 b.rows
    rw [hb'] at this
    have hl : (csrVstack a b).nnz = b.nnz + a.nnz := by
      have hne : (csrVstack a b).indptr ≠ [] := by intro e; rw [e] at hlen; simp at hlen
      unfold Csr.nnz
      rw [List.getLast?_eq_some_getLast hne, Option.getD_some, List.getLast_eq_getElem]
      have h3 : (csrVstack a b).indptr[(csrVstack a b).indptr.length - 1]? = some (b.nnz + a.nnz) := by
        rw [hlen]; simpa using this
      obtain ⟨_, e⟩ := List.getElem?_eq_some_iff.mp h3
      exact e
    rw [hl, ha.last, hb.last]
    unfold csrVstack
    simp [Nat.add_comm]
  · unfold csrVstack
    simp [ha.indices, hb.indices]

/-- **C97.** The rows of the stacked matrix are the rows of the first one followed by those of the second one. -/
theorem C97_rows {a b : Csr V} (ha : WellFormed a) (hb : WellFormed b) :
    (csrVstack a b).rows = a.rows + b.rows ∧
      (∀ i, i < a.rows → (csrVstack a b).row i = a.row i) ∧
      ∀ j, j < b.rows → (csrVstack a b).row (a.rows + j) = b.row j := by
  obtain ⟨h1, h2⟩ := indptr_vstack ha hb
  have hzip : (csrVstack a b).indices.zip (csrVstack a b).data = a.indices.zip a.data ++ b.indices.zip b.data := by
    unfold csrVstack
    dsimp only
    rw [List.zip_append ha.indices]
  have hzl : (a.indices.zip a.data).length = a.nnz := by
    rw [List.length_zip, ha.indices, ha.last]; simp
  refine ⟨rfl, fun i hi => ?_, fun j hj => ?_⟩
  · unfold Csr.row
    rw [h1 i (by omega), h1 (i + 1) (by omega), hzip]
    have hs : i < a.indptr.length := by rw [ha.length]; omega
    have he : i + 1 < a.indptr.length := by rw [ha.length]; omega
    rw [List.getElem?_eq_getElem hs, List.getElem?_eq_getElem he]
    dsimp only
    have := ha.le_nnz (List.getElem?_eq_getElem he)
    rw [List.take_append_of_le_length (by rw [hzl]; exact this)]
  · unfold Csr.row
    rw [h2 j, show a.rows + j + 1 = a.rows + (j + 1) by omega, h2 (j + 1), hzip]
    have hs : j < b.indptr.length := by rw [hb.length]; omega
    have he : j + 1 < b.indptr.length := by rw [hb.length]; omega
    rw [List.getElem?_eq_getElem hs, List.getElem?_eq_getElem he]
    simp only [Option.map_some]
    rw [List.take_append, List.drop_append, hzl]
    have e1 : b.indptr[j + 1] + a.nnz - a.nnz = b.indptr[j + 1] := by omega
    rw [e1, List.take_of_length_le (by rw [hzl]; omega), List.drop_of_length_le (by rw [hzl]; omega), List.nil_append, hzl]
    rw [show b.indptr[j] + a.nnz - a.nnz = b.indptr[j] by omega]

theorem rowAt_wf (b : Csr V) (i : ℕ) : WellFormed (b.rowAt i) :=
  ⟨rfl, rfl, by simp [Csr.rowAt], by simp [Csr.nnz, Csr.rowAt], by simp [Csr.rowAt]⟩

theorem rowAt_row (b : Csr V) (i : ℕ) : (b.rowAt i).row 0 = b.row i := by
  have : ∀ l : List (ℕ × V), (l.map Prod.fst).zip (l.map Prod.snd) = l := by
    intro l
    induction l with
    | nil => rfl
    | cons x l ih => simp [ih]
  unfold Csr.rowAt
  rw [Csr.row]
  simp [this]

/-- **C97.** A data point can be appended to a sparse matrix: the result has the rows of the matrix and, as its last row, the
requested row of the other matrix. -/
theorem C97_append_sparse (a b : Csr V) (ha : WellFormed a) (index : ℕ) (hi : index < b.rows) :
    ∃ c, appendExtra (.sparse a) (.sparse b) index = .ok (.sparse c) ∧ WellFormed c ∧ c.rows = a.rows + 1 ∧
      (∀ i, i < a.rows → c.row i = a.row i) ∧ c.row a.rows = b.row index := by
  have hw := rowAt_wf b index
  obtain ⟨h1, h2, h3⟩ := C97_rows ha hw
  refine ⟨csrVstack a (b.rowAt index), ?_, C97_well_formed ha hw, h1, h2, ?_⟩
  · simp only [appendExtra, if_pos hi]
  · have := h3 0 (by simp [Csr.rowAt])
    rw [Nat.add_zero] at this
    rw [this, rowAt_row]

/-- **C97.** A data point can be appended to a matrix or a data frame with rows of the same width. Missing: arrays with one
or with more than two dimensions (`C97_not_append`). -/
theorem C97_append_partial (rows rows' : List (List V)) (index : ℕ) (hi : index < rows'.length)
    (hw : ∀ r ∈ rows, r.length = rows'[index].length) :
    appendExtra (.ndarray 2 rows) (.ndarray 2 rows') index = .ok (.ndarray 2 (rows ++ [rows'[index]])) ∧
      appendExtra (.frame rows) (.frame rows') index = .ok (.frame (rows ++ [rows'[index]])) := by
  constructor
  · simp only [appendExtra, List.getElem?_eq_getElem hi, vstackRow, if_true]
    rw [if_pos (List.all_eq_true.mpr (fun r hr => by simpa using hw r hr))]
  · simp only [appendExtra, List.getElem?_eq_getElem hi]

/-- **C97 is violated.** With a vector of features (for instance of texts) or an array of images, nothing can be appended: the
cross-validation raises when a fold lacks a class. -/
theorem C97_not_append (d : ℕ) (hd : d ≠ 2) (rows rows' : List (List V)) (hl : 2 ≤ rows.length) (index : ℕ) :
    ∃ e, appendExtra (.ndarray d rows) (.ndarray d rows') index = .error e := by
  unfold appendExtra
  dsimp only
  cases rows'[index]? with
  | none => exact ⟨_, rfl⟩
  | some r =>
    dsimp only
    unfold vstackRow
    rw [if_neg hd, if_neg (by omega)]
    exact ⟨_, rfl⟩

/-- **C97 is violated.** To a vector with a single element one can append, but the result is a matrix with two rows. -/
theorem C97_not_vector (d : ℕ) (a : List V) (rows' : List (List V)) (index : ℕ) (hi : index < rows'.length) :
    appendExtra (.ndarray 1 [a]) (.ndarray d rows') index = .ok (.ndarray 2 [a, rows'[index]]) := by
  simp [appendExtra, List.getElem?_eq_getElem hi, vstackRow]

example : csrVstack (V := ℤ) ⟨[5, 7], [0, 2], [0, 1, 2], 2, 3⟩ ⟨[9, 4], [0, 1], [0, 0, 2], 2, 3⟩ =
    ⟨[5, 7, 9, 4], [0, 2, 0, 1], [0, 1, 2, 2, 4], 4, 3⟩ := by decide +kernel

example : WellFormed (V := ℤ) ⟨[5, 7], [0, 2], [0, 1, 2], 2, 3⟩ :=
  ⟨rfl, rfl, by decide, rfl, rfl⟩

end Cleanlab.Props
