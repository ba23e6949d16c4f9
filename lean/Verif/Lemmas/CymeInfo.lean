import Verif.Lemmas.CymeShared

/-! Tables whose rows get further values that are not in the file. -/
namespace Ditto.Cyme
open Ditto Glm Spec

/-- the state with further values in all rows -/
def withInfo (info : Values) (s : TableState) : TableState := { s with result := s.result.map fun p => (p.1, updateAll p.2 info) }

theorem tableRows_info (info : Values) (lines : List Text) : ∀ s : TableState,
    tableRows info (withInfo info s) lines = (withInfo info (tableRows [] s lines).1, (tableRows [] s lines).2) := by
  induction lines with
  | nil => intro s; rfl
  | cons line lines ih =>
    intro s
    rw [tableRows, tableRows]
    split
    · rw [← ih]
      congr 1
      unfold tableRow
      split
      · unfold formatRow withInfo
        dsimp only
        split <;> rfl
      · unfold dataRow withInfo
        dsimp only
        split
        · rw [List.map_append, List.map_map, List.length_map]
          rfl
        · rfl
    · rfl

/-- the values are those in the columns, and then the further ones -/
def InfoRead (q : Query) (cols row : List Text) (v : Values) : Prop := ∃ w, RowRead q.attrs cols row w ∧ v = updateAll w q.info

theorem helper_info (q : Query) (line : Text) (rest : List Text) {r : List (Text × Values)} {rest' : List Text}
    (h : parserHelper { q with info := [] } line rest = .ok (r, rest')) :
    parserHelper q line rest = .ok (r.map (fun p => (p.1, updateAll p.2 q.info)), rest') := by
  have after : ∀ {s : TableState} {rest' : List Text}, afterHeader { q with info := [] } rest = .ok (s, rest') →
      afterHeader q rest = .ok (withInfo q.info s, rest') := by
    intro s rest' h
    have run : ∀ (m : List (Text × Nat)) (lines : List Text),
        tableRows [] { attrs := q.attrs, mapping := m, more := q.more } lines = (s, rest') →
        tableRows q.info { attrs := q.attrs, mapping := m, more := q.more } lines = (withInfo q.info s, rest') := by
      intro m lines hl
      have := tableRows_info q.info lines { attrs := q.attrs, mapping := m, more := q.more }
      rw [hl] at this
      exact this
    cases rest with
    | nil => cases h
    | cons l rest =>
      unfold afterHeader at h ⊢
      dsimp only at h ⊢
      by_cases hf : inText "format".toList (lower l)
      · rw [if_pos hf] at h ⊢
        cases rest with
        | nil => cases h
        | cons n rest =>
          dsimp only at h ⊢
          injection h with h
          rw [run _ _ h]
      · rw [if_neg hf] at h ⊢
        injection h with h
        rw [run _ _ h]
  unfold parserHelper at h ⊢
  by_cases hh : isHeader q.headers line
  · rw [if_pos hh] at h ⊢
    cases ha : afterHeader { q with info := [] } rest with
    | error e => rw [ha] at h; cases h
    | ok x =>
      obtain ⟨s, t⟩ := x
      rw [ha] at h
      injection h with h
      injection h with h1 h2
      subst h1 h2
      rw [after ha]
      rfl
  · rw [if_neg hh] at h ⊢
    injection h with h
    injection h with h1 h2
    subst h1 h2
    rfl

theorem info_reads {q : Query} (ha : q.attrs.Nodup) : ReadsRows InfoRead q := by
  intro h f cols lines rows hh hf hl hs
  obtain ⟨new, h1, h2, h3, h4⟩ := helper_table (q := { q with info := [] }) rfl ha hh hf hl hs
  refine ⟨new.map fun p => (p.1, updateAll p.2 q.info), ?_, ?_, fun blank rest hb => helper_info q _ _ (h3 blank rest hb),
    fun hne => helper_info q _ _ (h4 hne)⟩
  · rw [List.forall₂_map_right_iff]
    exact h1.imp fun r p hp => ⟨p.2, hp, rfl⟩
  · rw [List.map_map]
    exact h2

/-- a further value wins -/
theorem updateAll_one (d : Values) (k x : Text) (k' : Text) : getEntry k' (updateAll d [(k, x)]) = if k' = k then some x else getEntry k' d := by
  unfold updateAll
  rw [List.foldl_cons, List.foldl_nil, getEntry_setEntry]

/-- for other attributes the values are those in the columns -/
theorem info_row {q : Query} {cols row : List Text} {v : Values} {k x : Text} (hi : q.info = [(k, x)]) (h : InfoRead q cols row v) (hk : k ∉ q.attrs) :
    getEntry k v = some x ∧ ∃ w, RowRead q.attrs cols row w ∧ ∀ k', k' ≠ k → getEntry k' v = getEntry k' w := by
  obtain ⟨w, hw, rfl⟩ := h
  rw [hi]
  refine ⟨by rw [updateAll_one, if_pos rfl], w, hw, fun k' hk' => by rw [updateAll_one, if_neg hk']⟩

end Ditto.Cyme
