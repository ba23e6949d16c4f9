import Verif.Model.Matrix
import Mathlib.Tactic.Ring
import Mathlib.Tactic.Linarith
import Mathlib.Tactic.NormNum

namespace Ditto.Mat
open Ditto

variable {K : Type} [Field K]

/-- `m` is an `n × n` list-of-rows matrix. -/
def IsSquare (n : Nat) (m : List (List K)) : Prop := m.length = n ∧ ∀ row ∈ m, row.length = n

/-- `m` is a lower triangular matrix in list format: the `i`-th row has `i+1` entries. -/
def LowerTriangular (m : List (List K)) : Prop := ∀ i row, m[i]? = some row → row.length = i + 1

/-- `m` has the entry `v` at `(i, j)`. -/
def HasEntry (m : List (List K)) (i j : Nat) (v : K) : Prop := ∃ row, m[i]? = some row ∧ row[j]? = some v

private theorem max_some_of_ne {m : List (List K)} (h : m ≠ []) :
    ∃ n, (m.map List.length).max? = some n := by
  cases hm : (m.map List.length).max? with
  | none => simp at hm; exact absurd hm h
  | some n => exact ⟨n, rfl⟩

/-- C04: `symmetrize` raises `ValueError` exactly on the empty matrix. -/
theorem C04_error_iff_empty (m : List (List K)) : (∃ e, symmetrize m = .error e) ↔ m = [] := by
  constructor
  · rintro ⟨e, h⟩
    by_contra hne
    obtain ⟨n, hn⟩ := max_some_of_ne hne
    simp only [symmetrize, hn] at h
    split at h <;> simp at h
  · rintro rfl; exact ⟨.valueError, by simp [symmetrize]⟩

/-- C04: it answers `None` exactly if the matrix is not empty and its longest row has not as many entries
as there are rows. -/
theorem C04_none_iff_not_square (m : List (List K)) :
    symmetrize m = .ok none ↔
      m ≠ [] ∧ ¬ ((∀ row ∈ m, row.length ≤ m.length) ∧ ∃ row ∈ m, row.length = m.length) := by
  by_cases hne : m = []
  · subst hne; simp [symmetrize]
  · obtain ⟨n, hn⟩ := max_some_of_ne hne
    have hn' := List.max?_eq_some_iff.1 hn
    simp only [List.mem_map, forall_exists_index, and_imp, forall_apply_eq_imp_iff₂] at hn'
    obtain ⟨⟨r, hr, hrn⟩, hle⟩ := hn'
    simp only [symmetrize, hn]
    constructor
    · intro h
      refine ⟨hne, ?_⟩
      rintro ⟨h1, ⟨r', hr', hl'⟩⟩
      split at h
      · rename_i hlen
        apply hlen
        have := h1 r hr
        have := hle r' hr'
        omega
      · simp at h
    · rintro ⟨-, h⟩
      rw [if_pos]
      intro hlen
      exact h ⟨fun row hrow => hlen ▸ hle row hrow, r, hr, by omega⟩

private theorem entry_result (n : Nat) (f : Nat → Nat → K) (i j : Nat) (hi : i < n) (hj : j < n) :
    HasEntry ((List.range n).map fun i => (List.range n).map fun j => f i j) i j (f i j) := by
  refine ⟨_, by rw [List.getElem?_map, List.getElem?_range hi]; rfl, ?_⟩
  rw [List.getElem?_map, List.getElem?_range hj]; rfl

private theorem entry_result_unique {m : List (List K)} {i j : Nat} {v w : K}
    (h1 : HasEntry m i j v) (h2 : HasEntry m i j w) : v = w := by
  obtain ⟨r, h, h'⟩ := h1
  obtain ⟨r2, g, g'⟩ := h2
  rw [h] at g; cases g
  rw [h'] at g'; cases g'; rfl

private theorem square_result (n : Nat) (f : Nat → Nat → K) :
    IsSquare n ((List.range n).map fun i => (List.range n).map fun j => f i j) := by
  constructor
  · simp
  · intro row h
    simp only [List.mem_map, List.mem_range] at h
    obtain ⟨i, -, rfl⟩ := h
    simp

/-- C04: whenever `symmetrize` answers a matrix, it is square of the right size and symmetric. -/
theorem C04_symmetric (m r : List (List K)) (h : symmetrize m = .ok (some r)) :
    IsSquare m.length r ∧ ∀ i j v, HasEntry r i j v → HasEntry r j i v := by
  unfold symmetrize at h
  split at h
  · simp at h
  · rename_i n hn
    split at h
    · simp at h
    · rename_i hlen
      rw [not_not] at hlen
      simp only [Except.ok.injEq, Option.some.injEq] at h
      rw [hlen]
      subst h
      refine ⟨square_result n _, ?_⟩
      intro i j v hv
      have hij : i < n ∧ j < n := by
        obtain ⟨row, h1, h2⟩ := hv
        rw [List.getElem?_map, Option.map_eq_some_iff] at h1
        obtain ⟨a, ha, rfl⟩ := h1
        have := (List.getElem?_eq_some_iff.1 ha).1
        have h3 := (List.getElem?_eq_some_iff.1 h2).1
        simp at this h3
        exact ⟨this, h3⟩
      have e := entry_result_unique hv (entry_result n _ i j hij.1 hij.2)
      rw [e]
      have := entry_result n (fun i j => if i = j then
        (entry (m.map (pad n)) i j + entry (m.map (pad n)) j i) * (1/2) else
        (entry (m.map (pad n)) i j + entry (m.map (pad n)) j i)) j i hij.2 hij.1
      convert this using 1
      by_cases hc : i = j
      · subst hc; rfl
      · rw [if_neg hc, if_neg (fun h => hc h.symm)]; ring

private theorem entry_pad {m : List (List K)} {n i j : Nat} {row : List K} (h : m[i]? = some row) :
    entry (m.map (pad n)) i j = (row[j]?).getD 0 := by
  unfold entry
  rw [List.getElem?_map, h]
  simp only [Option.map_some, Option.getD_some, pad]
  by_cases hj : j < row.length
  · rw [List.getElem?_append_left hj]
  · rw [List.getElem?_append_right (by omega), List.getElem?_eq_none (l := row) (by omega)]
    rw [List.getElem?_replicate]
    split <;> rfl

/-- C04: for a non-empty lower triangular matrix the result is the symmetric completion: its lower triangle
is the input. (`2 ≠ 0` in `K`: no rounding, and halving is meaningful.) -/
theorem C04_lower_triangular (h2 : (2 : K) ≠ 0) (m : List (List K)) (hne : m ≠ [])
    (hm : LowerTriangular m) :
    ∃ r, symmetrize m = .ok (some r) ∧ ∀ i j v, j ≤ i → HasEntry m i j v → HasEntry r i j v := by
  have hlen : (m.map List.length).max? = some m.length := by
    rw [List.max?_eq_some_iff]
    constructor
    · have hpos : 0 < m.length := by
        rcases m with _ | _ <;> simp_all
      have hget : m[m.length - 1]? = some (m[m.length - 1]) := List.getElem?_eq_getElem (by omega)
      have := hm _ _ hget
      refine List.mem_map.2 ⟨m[m.length - 1], List.getElem_mem _, by omega⟩
    · intro b hb
      obtain ⟨row, hrow, rfl⟩ := List.mem_map.1 hb
      obtain ⟨i, hi, rfl⟩ := List.mem_iff_getElem.1 hrow
      have := hm i _ (List.getElem?_eq_getElem hi)
      omega
  refine ⟨_, by simp only [symmetrize, hlen]; rw [if_neg (by simp)], ?_⟩
  intro i j v hji hv
  obtain ⟨row, hrow, hval⟩ := hv
  have hi : i < m.length := (List.getElem?_eq_some_iff.1 hrow).1
  have hj : j < m.length := by omega
  have hrowj : m[j]? = some m[j] := List.getElem?_eq_getElem hj
  have := entry_result m.length (fun i j => if i = j then
        (entry (m.map (pad m.length)) i j + entry (m.map (pad m.length)) j i) * (1/2) else
        (entry (m.map (pad m.length)) i j + entry (m.map (pad m.length)) j i)) i j hi hj
  convert this using 1
  rw [entry_pad hrow, entry_pad hrowj, hval]
  by_cases hc : i = j
  · subst hc
    rw [if_pos rfl]
    have : m[i] = row := by rw [hrow] at hrowj; exact (Option.some.inj hrowj).symm
    rw [this, hval]
    simp only [Option.getD_some]
    field_simp
    ring
  · rw [if_neg hc]
    have hl := hm j _ hrowj
    rw [List.getElem?_eq_none (by omega : (m[j]).length ≤ i)]
    simp

/-- C04: on a full square matrix, `symmetrize` adds the transpose: off-diagonal entries become
`m i j + m j i` (so a symmetric matrix has them doubled), diagonal ones are kept. -/
theorem C04_full_matrix (h2 : (2 : K) ≠ 0) (m : List (List K)) (n : Nat) (hn : 0 < n) (hm : IsSquare n m) :
    ∃ r, symmetrize m = .ok (some r) ∧
      ∀ i j v w, HasEntry m i j v → HasEntry m j i w →
        HasEntry r i j (if i = j then v else v + w) := by
  obtain ⟨hl, hrows⟩ := hm
  have hlen : (m.map List.length).max? = some n := by
    rw [List.max?_eq_some_iff]
    constructor
    · refine List.mem_map.2 ⟨m[0], List.getElem_mem _, hrows _ (List.getElem_mem _)⟩
    · intro b hb
      obtain ⟨row, hrow, rfl⟩ := List.mem_map.1 hb
      exact le_of_eq (hrows _ hrow)
  refine ⟨_, by simp only [symmetrize, hlen]; rw [if_neg (by simp [hl])], ?_⟩
  intro i j v w hv hw
  obtain ⟨row, hrow, hval⟩ := hv
  obtain ⟨row', hrow', hval'⟩ := hw
  have hi : i < n := hl ▸ (List.getElem?_eq_some_iff.1 hrow).1
  have hj : j < n := hl ▸ (List.getElem?_eq_some_iff.1 hrow').1
  have := entry_result n (fun i j => if i = j then
        (entry (m.map (pad n)) i j + entry (m.map (pad n)) j i) * (1/2) else
        (entry (m.map (pad n)) i j + entry (m.map (pad n)) j i)) i j hi hj
  convert this using 1
  rw [entry_pad hrow, entry_pad hrow', hval, hval']
  by_cases hc : i = j
  · subst hc
    rw [hrow] at hrow'; cases hrow'
    rw [hval] at hval'; cases hval'
    simp only [if_true, Option.getD_some]
    field_simp
    ring
  · simp [hc]

/-- C04: `symmetrize` is not idempotent. -/
theorem C04_not_idempotent :
    ∃ m r r' : List (List ℚ), symmetrize m = .ok (some r) ∧ symmetrize r = .ok (some r') ∧ r ≠ r' :=
  ⟨[[1], [2, 3]], [[1, 2], [2, 3]], [[1, 4], [4, 3]], by decide +kernel, by decide +kernel, by decide +kernel⟩

example : LowerTriangular ([[1], [2, 3], [4, 5, 6]] : List (List ℚ)) ∧
    symmetrize ([[1], [2, 3], [4, 5, 6]] : List (List ℚ)) =
      .ok (some [[1, 2, 4], [2, 3, 5], [4, 5, 6]]) := by
  constructor
  · intro i row h
    rcases i with _ | _ | _ | i <;> simp at h
    · subst h; rfl
    · subst h; rfl
    · subst h; rfl
  · decide +kernel

example : IsSquare 2 ([[1, 2], [2, 3]] : List (List ℚ)) := by simp [IsSquare]

end Ditto.Mat
